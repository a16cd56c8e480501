import Verif.Lemmas.AnyOrder
import Verif.Props.DbusInit

/-! # Lemmas about steps that change parts of a configuration -/

namespace Verif
section
variable [F : FloatModel]

/-- one change of a configuration -/
inductive Patch [FloatModel] where
  /-- settings of a sensor -/
  | note (name : String) (f : SensorConfig → SensorConfig)
  /-- a zone with loops -/
  | touch (zone : Int)
  /-- a loop of a zone -/
  | loop (zone : Int) (name : String) (info : ControllerInfo)
  /-- the settings of a zone -/
  | zone (zone : Int) (details : ZoneConfig)

/-- the settings of a sensor changed -/
def sensorSet (m : OMap String SensorConfig) (n : String) (f : SensorConfig → SensorConfig) : OMap String SensorConfig :=
  m.insert n (f ((m.find? n).getD SensorConfig.zero))

/-- a configuration after a change -/
def Patch.app (c : DbusCfg) : Patch → DbusCfg
  | .note n f => { c with sensors := sensorSet c.sensors n f }
  | .touch i => { c with pids := c.pids.insert i ((c.pids.find? i).getD {}) }
  | .loop i n x => { c with pids := c.pids.insert i (((c.pids.find? i).getD {}).insert n x) }
  | .zone i d => { c with zones := c.zones.insert i d }

/-- The changes do not get in each other's way. -/
def Patch.Free : Patch → Patch → Prop
  | .note n f, .note m g => n = m → ∀ x, f (g x) = g (f x)
  | .loop i n _, .loop j m _ => i = j → n ≠ m
  | .zone i _, .zone j _ => i ≠ j
  | _, _ => True

theorem Patch.Free.symm : ∀ {p q : Patch}, p.Free q → q.Free p := by
  intro p q h
  cases p <;> cases q <;> simp only [Patch.Free] at h ⊢
  · exact fun e x => (h e.symm x).symm
  · exact fun e e' => h e.symm e'.symm
  · exact fun e => h e.symm

theorem sensorSet_comm {m : OMap String SensorConfig} {n k : String} {f g : SensorConfig → SensorConfig}
    (h : n = k → ∀ x, f (g x) = g (f x)) : sensorSet (sensorSet m n f) k g = sensorSet (sensorSet m k g) n f := by
  by_cases e : n = k
  · subst e
    simp [sensorSet, OMap.find?_insert_self, OMap.insert_same, h rfl]
  · simp only [sensorSet]
    rw [OMap.find?_insert_ne _ e, OMap.find?_insert_ne _ (Ne.symm e), OMap.insert_comm _ e]

theorem Patch.comm {p q : Patch} (h : p.Free q) (c : DbusCfg) : Patch.app (Patch.app c p) q = Patch.app (Patch.app c q) p := by
  cases p <;> cases q <;> simp only [Patch.app, Patch.Free] at h ⊢
  · rw [sensorSet_comm h]
  · rename_i i j
    by_cases e : i = j
    · subst e; rfl
    · rw [OMap.find?_insert_ne _ e, OMap.find?_insert_ne _ (Ne.symm e), OMap.insert_comm _ e]
  · rename_i i j m y
    by_cases e : i = j
    · subst e
      simp [OMap.find?_insert_self, OMap.insert_same]
    · rw [OMap.find?_insert_ne _ e, OMap.find?_insert_ne _ (Ne.symm e), OMap.insert_comm _ e]
  · rename_i i n x j
    by_cases e : i = j
    · subst e
      simp [OMap.find?_insert_self, OMap.insert_same]
    · rw [OMap.find?_insert_ne _ e, OMap.find?_insert_ne _ (Ne.symm e), OMap.insert_comm _ e]
  · rename_i i n x j m y
    by_cases e : i = j
    · subst e
      simp [OMap.find?_insert_self, OMap.insert_same, OMap.insert_comm _ (h rfl)]
    · rw [OMap.find?_insert_ne _ e, OMap.find?_insert_ne _ (Ne.symm e), OMap.insert_comm _ e]
  · rw [OMap.insert_comm _ h]

/-- a configuration after some changes -/
def Patch.all (c : DbusCfg) (l : List Patch) : DbusCfg := l.foldl Patch.app c

theorem Patch.app_numbers (c : DbusCfg) (p : Patch) : (Patch.app c p).numbers = c.numbers := by cases p <;> rfl

theorem Patch.all_numbers (l : List Patch) : ∀ c : DbusCfg, (Patch.all c l).numbers = c.numbers := by
  induction l with
  | nil => intro c; rfl
  | cons p l ih => intro c; exact (ih _).trans (Patch.app_numbers c p)

theorem Patch.all_app {l : List Patch} {p : Patch} (h : ∀ q ∈ l, p.Free q) : ∀ c : DbusCfg,
    Patch.all (Patch.app c p) l = Patch.app (Patch.all c l) p := by
  induction l with
  | nil => intro c; rfl
  | cons q l ih =>
    intro c
    show Patch.all (Patch.app (Patch.app c p) q) l = _
    rw [Patch.comm (h q (by simp))]
    exact ih (fun r hr => h r (by simp [hr])) _

theorem Patch.all_all {l l' : List Patch} (h : ∀ p ∈ l', ∀ q ∈ l, p.Free q) : ∀ c : DbusCfg,
    Patch.all (Patch.all c l') l = Patch.all (Patch.all c l) l' := by
  induction l' with
  | nil => intro c; rfl
  | cons p l' ih =>
    intro c
    show Patch.all (Patch.all (Patch.app c p) l') l = Patch.all (Patch.app (Patch.all c l) p) l'
    rw [ih (fun q hq => h q (by simp [hq])), Patch.all_app (h p (by simp))]

/-- `s` makes changes of the kinds `A` only, and is not affected by changes that do not get in the way of these. -/
structure Confined (N : OMap String Int) (A : Patch → Prop) (s : DbusCfg → Res DbusCfg) : Prop where
  out : ∀ c r, c.numbers = N → s c = .ok r → ∃ l, (∀ p ∈ l, A p) ∧ r = Patch.all c l
  free : ∀ c p, c.numbers = N → (∀ q, A q → p.Free q) → s (Patch.app c p) = (s c).map (Patch.app · p)

theorem Confined.mono {N : OMap String Int} {A B : Patch → Prop} {s : DbusCfg → Res DbusCfg} (h : Confined N A s)
    (hAB : ∀ p, A p → B p) : Confined N B s :=
  ⟨fun c r hn hr => (h.out c r hn hr).imp fun _ hl => ⟨fun p hp => hAB p (hl.1 p hp), hl.2⟩,
   fun c p hn hf => h.free c p hn (fun q hq => hf q (hAB q hq))⟩

theorem Confined.all {N : OMap String Int} {A : Patch → Prop} {s : DbusCfg → Res DbusCfg} (h : Confined N A s) :
    ∀ (l : List Patch) (c : DbusCfg), c.numbers = N → (∀ p ∈ l, ∀ q, A q → p.Free q) →
      s (Patch.all c l) = (s c).map (Patch.all · l)
  | [], c, _, _ => by
    show s c = _
    cases s c <;> rfl
  | p :: l, c, hn, hf => by
    show s (Patch.all (Patch.app c p) l) = _
    rw [h.all l _ (by rw [Patch.app_numbers, hn]) (fun q hq => hf q (by simp [hq])), h.free c p hn (hf p (by simp))]
    cases s c <;> rfl

theorem Confined.comm {N : OMap String Int} {A B : Patch → Prop} {s t : DbusCfg → Res DbusCfg} (hs : Confined N A s)
    (ht : Confined N B t) (hf : ∀ p q, A p → B q → p.Free q) {c r1 r : DbusCfg} (hn : c.numbers = N) (h1 : s c = .ok r1)
    (h2 : t r1 = .ok r) : ∃ r2, t c = .ok r2 ∧ s r2 = .ok r := by
  obtain ⟨l, hl, rfl⟩ := hs.out c r1 hn h1
  rw [ht.all l c hn (fun p hp q hq => hf p q (hl p hp) hq)] at h2
  cases h3 : t c with
  | error e => rw [h3] at h2; cases h2
  | ok r2 =>
    rw [h3] at h2
    injection h2 with h2
    obtain ⟨l', hl', rfl⟩ := ht.out c r2 hn h3
    refine ⟨_, rfl, ?_⟩
    rw [hs.all l' c hn (fun p hp q hq => (hf q p hq (hl' p hp)).symm), h1]
    rw [← h2]
    exact congrArg Except.ok (Patch.all_all (fun p hp q hq => hf p q (hl p hp) (hl' q hq)) c)

theorem Confined.numbers {N : OMap String Int} {A : Patch → Prop} {s : DbusCfg → Res DbusCfg} (h : Confined N A s)
    {c r : DbusCfg} (hn : c.numbers = N) (hr : s c = .ok r) : r.numbers = N := by
  obtain ⟨l, -, rfl⟩ := h.out c r hn hr
  rw [Patch.all_numbers, hn]

theorem Confined.nothing (N : OMap String Int) (A : Patch → Prop) : Confined N A (fun c => .ok c) :=
  ⟨fun c r _ h => ⟨[], by simp, by injection h with h; exact h.symm⟩, fun _ _ _ _ => rfl⟩

theorem Confined.fails (N : OMap String Int) (A : Patch → Prop) (e : Err) : Confined N A (fun _ => .error e) :=
  ⟨fun _ _ _ h => (by cases h), fun _ _ _ _ => rfl⟩

theorem Confined.then {N : OMap String Int} {A : Patch → Prop} {s t : DbusCfg → Res DbusCfg} (hs : Confined N A s)
    (ht : Confined N A t) : Confined N A (fun c => s c >>= t) := by
  refine ⟨fun c r hn h => ?_, fun c p hn hf => ?_⟩
  · obtain ⟨r1, h1, h2⟩ := bind_eq_ok.1 h
    obtain ⟨l, hl, rfl⟩ := hs.out c r1 hn h1
    obtain ⟨l', hl', rfl⟩ := ht.out _ r (by rw [Patch.all_numbers, hn]) h2
    refine ⟨l ++ l', fun p hp => ?_, (List.foldl_append ..).symm⟩
    rcases List.mem_append.1 hp with h | h
    · exact hl p h
    · exact hl' p h
  · show s (Patch.app c p) >>= t = (s c >>= t).map _
    rw [hs.free c p hn hf]
    cases h1 : s c with
    | error e => rfl
    | ok r1 => exact ht.free r1 p (hs.numbers hn h1) hf

/-- what all steps of `s` do in a row -/
theorem Confined.each {N : OMap String Int} {A : Patch → Prop} {α : Type} {s : DbusCfg → α → Res DbusCfg}
    {f : DbusCfg → List α → Res DbusCfg} (f0 : ∀ c, f c [] = .ok c) (f1 : ∀ c a l, f c (a :: l) = s c a >>= fun c => f c l) :
    ∀ {l : List α}, (∀ a ∈ l, Confined N A (fun c => s c a)) → Confined N A (fun c => f c l)
  | [], _ => by simpa only [f0] using Confined.nothing N A
  | a :: l, h => by
    simp only [f1]
    exact (h a (by simp)).then (Confined.each f0 f1 (fun b hb => h b (by simp [hb])))

theorem Confined.bind {N : OMap String Int} {A : Patch → Prop} {α : Type} (x : Res α) {s : α → DbusCfg → Res DbusCfg}
    (hs : ∀ a, x = .ok a → Confined N A (s a)) : Confined N A (fun c => x >>= fun a => s a c) := by
  cases h : x with
  | error e => exact Confined.fails N A e
  | ok a => exact hs a h

end
end Verif
