import Verif.Props.DbusInit

/-! # C87: which margin a sensor gets in general

`C87_margins_partial` covers loops all of whose names stand for one sensor. Here is what happens otherwise. -/

namespace Verif
open Dbl

section
variable [F : FloatModel]

/-- How many inputs of a thermal loop come before the sensors of the `k`th listed name: the awaited sensors, which all come first,
and the sensors found for the names before. -/
def inputsBefore (b : BusView) (acceptable names : List String) (k : Nat) : Nat :=
  (if b.handleMissing then (names.filter (fun n => Matching b n = [] ∧ n ∉ acceptable)).length else 0) +
    ((names.take k).map (fun n => (Matching b n).length)).sum

theorem foundNames_at {b : BusView} : ∀ {names : List String} {k : Nat} {n : String} {j : Nat} {s : String × String},
    names[k]? = some n → (Matching b n)[j]? = some s →
    (foundNames b names)[((names.take k).map (fun n => (Matching b n).length)).sum + j]? = some (sensorNameFromPath s.1)
  | [], k, n, j, s, hk, _ => by simp at hk
  | m :: names, 0, n, j, s, hk, hj => by
    simp only [List.getElem?_cons_zero, Option.some.injEq] at hk
    subst hk
    rw [foundNames_cons, List.take_zero, List.map_nil, List.sum_nil, Nat.zero_add, List.getElem?_append_left, List.getElem?_map, hj]
    · rfl
    · rw [List.length_map]; exact (List.getElem?_eq_some_iff.1 hj).1
  | m :: names, k + 1, n, j, s, hk, hj => by
    simp only [List.getElem?_cons_succ] at hk
    have := foundNames_at hk hj
    rw [foundNames_cons, List.take_succ_cons, List.map_cons, List.sum_cons, Nat.add_assoc, List.getElem?_append_right]
    · rw [List.length_map, Nat.add_sub_cancel_left]; exact this
    · rw [List.length_map]; omega

/-- **C87** Which margin a sensor gets in any case: the sensor found as the `j`th for the `k`th name gets the margin at the position
counted over awaited and found sensors, not over names. So a sensor gets the margin listed for its name exactly where the names
before it stand for as many sensors as there are names, and no sensor is awaited. -/
theorem C87_position {b : BusView} {sel : List String} {objs : List ConfObj} (hw : ∀ o ∈ objs, OMap.WF o)
    {r : Bool} {c : DbusCfg} (h : dbusInit b sel objs = .ok (r, c)) {base : ConfProps} {i : Int} {conf : PIDConf}
    {zone n cls : String} {info : ControllerInfo} (hi : c.numbers.find? zone = some i) (hp : c.pids.find? i = some conf)
    (hf : conf.find? n = some info)
    (hstep : ∀ base' zones, Active sel objs stepwiseInterface base' → Attr base' "Zones" NamesValue zones → zone ∈ zones →
      ¬ ∃ name, Attr base' "Name" TextValue name ∧ n = sensorNameToDbusName name)
    (hpid : ∀ base' zones, Active sel objs pidInterface base' → Attr base' "Zones" NamesValue zones → zone ∈ zones →
      (∃ name, Attr base' "Name" TextValue name ∧ n = sensorNameToDbusName name) ∨
        base'.find? "SetPointOffset" ≠ none → base' = base)
    (hoff : base.find? "SetPointOffset" = none) (hcls : Attr base "Class" TextValue cls)
    (hheat : cls ∈ ["temp", "margin", "power", "powersum"]) {names acceptable : List String} {margins : List Dbl}
    (hin : Attr base "Inputs" NamesValue names) (hm : AttrOr base "TempToMargin" NumbersValue [] margins)
    (hacc : AttrOr base "MissingIsAcceptable" NamesValue [] acceptable) {k j : Nat} {m : String} {s : String × String}
    (hk : names[k]? = some m) (hj : (Matching b m)[j]? = some s) :
    ∃ x, info.inputs[inputsBefore b acceptable names k + j]? = some x ∧ x.name = sensorNameFromPath s.1 ∧
      x.convertTempToMargin = decide (inputsBefore b acceptable names k + j < margins.length) ∧
      x.convertMarginZero = margins.getD (inputsBefore b acceptable names k + j) nan := by
  have hl := C83_loop hw h hi hp hf hstep hpid
  cases hl with
  | offset t _ _ _ _ _ _ h1 =>
    obtain ⟨v, hv, -⟩ := h1
    rw [hoff] at hv
    cases hv
  | plain name h1 h2 h3 h4 h5 h6 =>
    obtain ⟨names', margins', acc, hn, hm', -, hsp⟩ := h6
    rw [attrOr_unique numbers_unique hm' hm] at hsp
    have hnames : names' = missingNames b acceptable names ++ foundNames b names := by
      cases hn with
      | heat a1 a2 a3 a4 => rw [attr_unique names_unique a3 hin, attrOr_unique names_unique a4 hacc]
      | fan a1 =>
        rw [attr_unique text_unique hcls a1] at hheat
        exact absurd hheat (by decide)
      | other a1 a2 =>
        rw [attr_unique text_unique hcls a1] at hheat
        exact absurd (List.mem_cons_of_mem _ hheat) a2
    rw [hnames] at hsp
    have hlen : (missingNames b acceptable names).length =
        if b.handleMissing then (names.filter (fun n => Matching b n = [] ∧ n ∉ acceptable)).length else 0 := by
      unfold missingNames
      split
      · rw [List.length_map]
      · rfl
    have hx : (info.inputs.map SensorInput.name)[inputsBefore b acceptable names k + j]? = some (sensorNameFromPath s.1) := by
      rw [hsp.1]
      unfold inputsBefore
      rw [← hlen, Nat.add_assoc, List.getElem?_append_right (by omega), Nat.add_sub_cancel_left]
      exact foundNames_at hk hj
    rw [List.getElem?_map] at hx
    cases hxk : info.inputs[inputsBefore b acceptable names k + j]? with
    | none => rw [hxk] at hx; cases hx
    | some x =>
      rw [hxk] at hx
      injection hx with hx
      obtain ⟨b1, b2, -⟩ := hsp.2 _ x hxk
      exact ⟨x, rfl, hx, b1, b2⟩

end

namespace Ex
section
attribute [local instance] binary64

/-- in `C87_violated` one name without a sensor comes before the second: its sensor is the first input and gets the first margin -/
example : inputsBefore (halfBus false) [] ["Core 1", "Core 2"] 1 = 0 ∧ inputsBefore (halfBus true) [] ["Core 1", "Core 2"] 1 = 1 ∧
    inputsBefore coreBus [] ["Core 1", "Core 2"] 1 = 1 := by decide +kernel

/-- an awaited sensor comes first whatever its place in the list: with the second core missing and awaited, the first core gets the
margin of the second -/
def otherBus (handleMissing : Bool) : BusView := busOf handleMissing
  [("/sensors/temperature/Core_1", valueInterface), ("/sensors/fan_tach/Fan_1", valueInterface), ("/control/Pwm_1", pwmInterface)]
example : inputsBefore (otherBus true) [] ["Core 1", "Core 2"] 0 = 1 ∧
    ((loopsOf (otherBus true) (system [("TempToMargin", .dbls [85, 95])]) 3).bind (fun l => l.head?)) =
      some ("CPU_loop", [⟨"Core_2", 85, true, false⟩, ⟨"Core_1", 95, true, false⟩]) := by decide +kernel

end
end Ex
end Verif
