import Verif.Spec.Writers
import Verif.Props.EndToEnd

/-! # Fan writers: C45 to C47, and what C43 leaves open -/

namespace Verif
open Dbl
section
variable [F : FloatModel]

/-! ## C45 -/

theorem unit_fin {v : Dbl} (h0 : 0 ≤ v) (h1 : v ≤ 1) : ∃ q h, v = fin q h ∧ 0 ≤ q ∧ q ≤ 1 := by
  rw [zero_eq] at h0
  rw [one_eq] at h1
  cases v with
  | fin q h => exact ⟨q, h, rfl, by simpa using h0, by simpa using h1⟩
  | _ => simp at h0 h1

theorem rep_intRat {n : Int} (h₁ : -(2 ^ 53) ≤ n) (h₂ : n ≤ 2 ^ 53) : F.rep (n : Rat) := F.rep_int n h₁ h₂

theorem ofRat_between {a b : Int} {q : Rat} (ha : -(2 ^ 53) ≤ a) (ha' : a ≤ 2 ^ 53) (hb : -(2 ^ 53) ≤ b) (hb' : b ≤ 2 ^ 53)
    (h1 : (a : Rat) ≤ q) (h2 : q ≤ b) : ∃ t ht, (ofRat q : Dbl) = fin t ht ∧ (a : Rat) ≤ t ∧ t ≤ b := by
  have l := ofRat_mono h1
  have u := ofRat_mono h2
  rw [ofRat_rep (rep_intRat ha ha')] at l
  rw [ofRat_rep (rep_intRat hb hb')] at u
  cases hq : (ofRat q : Dbl) with
  | fin t ht => rw [hq] at l u; exact ⟨t, ht, rfl, by simpa using l, by simpa using u⟩
  | _ => rw [hq] at l u; simp at l u

section
variable {min max : Int} (h0 : 0 ≤ min) (h1 : min ≤ max) (h2 : max ≤ 2 ^ 53)
include h0 h1 h2

theorem range_eq : (ofInt max - ofInt min : Dbl) = fin ((max - min : Int) : Rat) (rep_intRat (by omega) (by omega)) := by
  rw [ofInt_eq (by omega) (by omega), ofInt_eq (by omega) (by omega), fin_sub_fin]
  have : (max : Rat) - min = ((max - min : Int) : Rat) := by push_cast; ring
  rw [this, ofRat_rep]

theorem percentToRaw_fin {v : Dbl} (hv0 : 0 ≤ v) (hv1 : v ≤ 1) :
    ∃ t ht, percentToRaw min max v = fin t ht ∧ (min : Rat) ≤ t ∧ t ≤ max := by
  obtain ⟨q, hq, rfl, q0, q1⟩ := unit_fin hv0 hv1
  have hr : (0 : Rat) ≤ ((max - min : Int) : Rat) := by exact_mod_cast (by omega : (0 : Int) ≤ max - min)
  obtain ⟨t, ht, e, a, b⟩ := ofRat_between (F := F) (a := 0) (b := max - min) (q := ((max - min : Int) : Rat) * q)
    (by omega) (by omega) (by omega) (by omega) (by push_cast at hr ⊢; nlinarith) (by nlinarith)
  simp only [percentToRaw]
  rw [range_eq h0 h1 h2, fin_mul_fin, e, ofInt_eq (by omega) (by omega), fin_add_fin]
  obtain ⟨t2, ht2, e2, a2, b2⟩ := ofRat_between (F := F) (a := min) (b := max) (q := t + min)
    (by omega) (by omega) (by omega) (by omega) (by push_cast at a; linarith) (by push_cast at b; linarith)
  exact ⟨t2, ht2, e2, a2, b2⟩

theorem percentToRaw_mono {v v' : Dbl} (hv0 : 0 ≤ v) (hv : v ≤ v') (hv1 : v' ≤ 1) :
    percentToRaw min max v ≤ percentToRaw min max v' := by
  have hv1' := Dbl.le_trans hv hv1
  have hv0' := Dbl.le_trans hv0 hv
  obtain ⟨t, ht, e, _⟩ := percentToRaw_fin (F := F) h0 h1 h2 hv0 hv1'
  obtain ⟨t', ht', e', _⟩ := percentToRaw_fin (F := F) h0 h1 h2 hv0' hv1
  simp only [percentToRaw] at e e' ⊢
  have n1 : (ofInt max - ofInt min) * v + ofInt min ≠ nan := by rw [e]; simp
  have n2 : (ofInt max - ofInt min) * v' + ofInt min ≠ nan := by rw [e']; simp
  refine add_le_add ?_ (Dbl.le_refl (ofInt_ne_nan _)) n1 n2
  refine mul_le_mul_left_of_nonneg ?_ hv (add_ne_nan_left n1) (add_ne_nan_left n2)
  rw [range_eq h0 h1 h2, zero_eq, fin_le_fin]
  exact_mod_cast (by omega : (0 : Int) ≤ max - min)

omit h0 h1 h2 in
theorem trunc_between {t : Rat} (h0 : 0 ≤ min) (a : (min : Rat) ≤ t) (b : t ≤ max) : min ≤ truncQ t ∧ truncQ t ≤ max := by
  have ht : (0 : Rat) ≤ t := le_trans (by exact_mod_cast h0) a
  rw [truncQ, if_pos ht]
  exact ⟨Int.le_floor.2 a, by
    have := le_trans (Int.floor_le t) b
    exact_mod_cast this⟩

theorem percent_casts {v : Dbl} (hv0 : 0 ≤ v) (hv1 : v ≤ 1) :
    ∃ u, (percentToRaw min max v).toI64 = some u ∧ (percentToRaw min max v).toU64 = some u ∧ min ≤ u ∧ u ≤ max := by
  obtain ⟨t, ht, e, a, b⟩ := percentToRaw_fin (F := F) h0 h1 h2 hv0 hv1
  obtain ⟨c, d⟩ := trunc_between h0 a b
  refine ⟨truncQ t, ?_, ?_, c, d⟩
  · rw [e, toI64, castInt, if_pos ⟨by omega, by omega⟩]
  · rw [e, toU64, castInt, if_pos ⟨by omega, by omega⟩]

theorem dbus_ok {ov : Dbl} {u : Int} (h1 : ov.toI64 = some u) (h2 : ov.toU64 = some u) (busOk : Bool) (path : String)
    (old : Int) (mk : Int → Writer) (force : Bool) :
    ∃ r, dbusWriteTail busOk path old mk ov force = .ok r ∧
      (force = true → r.effect = some (.dbusSet path u busOk)) := by
  unfold dbusWriteTail
  simp only [h1, h2, castOr, ok_bind]
  split_ifs with hc
  · exact ⟨_, rfl, by simp [hc.2]⟩
  · exact ⟨_, rfl, fun _ => rfl⟩

theorem percent_sends {wr : Writer} (hp : IsPercent min max wr) {v : Dbl} {u : Int}
    (e1 : (percentToRaw min max v).toI64 = some u) (e2 : (percentToRaw min max v).toU64 = some u) : Sends wr v u := by
  intro busOk
  cases hp with
  | dbus path old =>
    obtain ⟨r, a, b⟩ := dbus_ok h0 h1 h2 e1 e2 (busOk path) path old (.dbusPercent path min max) true
    exact ⟨r, _, a, b rfl, rfl⟩
  | sysfs path =>
    refine ⟨⟨.sysfsPercent path min max, some (.sysfsWrite path u), none⟩, .sysfsWrite path u, ?_, rfl, rfl⟩
    simp only [Writer.write, e1, castOr, ok_bind]

/-- C45: a command between 0 and 1 sends a raw value between the limits, and all conversions are defined, forced or
not. -/
theorem C45_range {wr : Writer} (hp : IsPercent min max wr) {v : Dbl} (hv0 : 0 ≤ v) (hv1 : v ≤ 1) :
    (∃ u, Sends wr v u ∧ min ≤ u ∧ u ≤ max) ∧ ∀ busOk force, ∃ r, wr.write busOk v force = .ok r := by
  obtain ⟨u, e1, e2, a, b⟩ := percent_casts h0 h1 h2 hv0 hv1
  refine ⟨⟨u, percent_sends h0 h1 h2 hp e1 e2, a, b⟩, fun busOk force => ?_⟩
  cases hp with
  | dbus path old =>
    obtain ⟨r, a, _⟩ := dbus_ok h0 h1 h2 e1 e2 (busOk path) path old (.dbusPercent path min max) force
    exact ⟨r, a⟩
  | sysfs path => exact ⟨⟨.sysfsPercent path min max, some (.sysfsWrite path u), none⟩, by simp only [Writer.write, e1, castOr, ok_bind]⟩

omit h0 h1 h2 in
theorem Sends.unique {wr : Writer} {v : Dbl} {u u' : Int} (h : Sends wr v u) (h' : Sends wr v u') : u = u' := by
  obtain ⟨r, e, a, b, c⟩ := h (fun _ => true)
  obtain ⟨r', e', a', b', c'⟩ := h' (fun _ => true)
  rw [a] at a'; cases a'
  rw [b] at b'; cases b'
  exact c.symm.trans c'

/-- C45: 0 sends the minimum, 1 the maximum. -/
theorem C45_ends {wr : Writer} (hp : IsPercent min max wr) : Sends wr 0 min ∧ Sends wr 1 max := by
  have hc : ∀ (x : Int) (hx : (0 : Int) ≤ x) (hx' : x ≤ 2 ^ 53) (v : Dbl),
      percentToRaw min max v = fin (x : Rat) (rep_intRat (by omega) (by omega)) → Sends wr v x := by
    intro x hx hx' v e
    have ht : truncQ (x : Rat) = x := by
      rw [truncQ, if_pos (by exact_mod_cast hx)]; exact Int.floor_intCast x
    refine percent_sends h0 h1 h2 hp ?_ ?_
    · rw [e, toI64, castInt, ht, if_pos ⟨by omega, by omega⟩]
    · rw [e, toU64, castInt, ht, if_pos ⟨by omega, by omega⟩]
  constructor
  · refine hc min h0 (by omega) 0 ?_
    simp only [percentToRaw]
    rw [range_eq h0 h1 h2, zero_eq, fin_mul_fin, Rat.mul_zero, ofRat_rep FloatModel.rep_zero,
      ofInt_eq (by omega) (by omega), fin_add_fin, Rat.zero_add, ofRat_rep]
  · refine hc max (by omega) (by omega) 1 ?_
    simp only [percentToRaw]
    rw [range_eq h0 h1 h2, one_eq, fin_mul_fin, Rat.mul_one, ofRat_rep (rep_intRat (by omega) (by omega)),
      ofInt_eq (by omega) (by omega), fin_add_fin]
    have : ((max - min : Int) : Rat) + min = max := by push_cast; ring
    rw [this, ofRat_rep]

/-- C45: a larger command never sends a smaller raw value. -/
theorem C45_monotone {wr : Writer} (hp : IsPercent min max wr) {v v' : Dbl} {u u' : Int} (hv0 : 0 ≤ v) (hv : v ≤ v')
    (hv1 : v' ≤ 1) (h : Sends wr v u) (h' : Sends wr v' u') : u ≤ u' := by
  have hv1' := Dbl.le_trans hv hv1
  have hv0' := Dbl.le_trans hv0 hv
  obtain ⟨t, ht, e, a, b⟩ := percentToRaw_fin (F := F) h0 h1 h2 hv0 hv1'
  obtain ⟨t', ht', e', a', b'⟩ := percentToRaw_fin (F := F) h0 h1 h2 hv0' hv1
  have hm := percentToRaw_mono (F := F) h0 h1 h2 hv0 hv hv1
  rw [e, e', fin_le_fin] at hm
  obtain ⟨c, d⟩ := trunc_between h0 a b
  obtain ⟨c', d'⟩ := trunc_between h0 a' b'
  have s : Sends wr v (truncQ t) := by
    refine percent_sends h0 h1 h2 hp ?_ ?_
    · rw [e, toI64, castInt, if_pos ⟨by omega, by omega⟩]
    · rw [e, toU64, castInt, if_pos ⟨by omega, by omega⟩]
  have s' : Sends wr v' (truncQ t') := by
    refine percent_sends h0 h1 h2 hp ?_ ?_
    · rw [e', toI64, castInt, if_pos ⟨by omega, by omega⟩]
    · rw [e', toU64, castInt, if_pos ⟨by omega, by omega⟩]
  rw [h.unique s, h'.unique s']
  have hn : (0 : Rat) ≤ t := le_trans (by exact_mod_cast h0) a
  rw [truncQ, truncQ, if_pos hn, if_pos (le_trans hn hm)]
  exact Int.floor_le_floor hm

end

/-! ## C46 and C47 -/

theorem castInt_some {lo hi : Int} {x : Dbl} {u : Int} (h : castInt lo hi x = some u) :
    ∃ q h, x = fin q h ∧ u = truncQ q ∧ lo ≤ u ∧ u ≤ hi := by
  cases x with
  | fin q hq =>
    simp only [castInt] at h
    split_ifs at h with hc
    cases h
    exact ⟨q, hq, rfl, rfl, hc.1, hc.2⟩
  | _ => cases h

/-- a D-Bus writer with its last raw value -/
def dbusWith (path : String) (limits : Option (Int × Int)) (old : Int) : Writer :=
  match limits with
  | some (min, max) => .dbusPercent path min max old
  | none => .dbusRaw path old

theorem dbusWith_write {path : String} {limits : Option (Int × Int)} {old : Int} {busOk : String → Bool} {v : Dbl}
    {force : Bool} {r : WriteResult} (h : (dbusWith path limits old).write busOk v force = .ok r) :
    ∃ raw, rawCommand limits v = some raw ∧ r.writer = dbusWith path limits raw ∧
      ((old = raw ∧ force = false ∧ r.effect = none) ∨
        ((old ≠ raw ∨ force = true) ∧ 0 ≤ raw ∧ r.effect = some (.dbusSet path raw (busOk path)))) := by
  have key : ∀ ov mk, dbusWriteTail (busOk path) path old mk ov force = .ok r → ∃ raw, ov.toI64 = some raw ∧
      r.writer = mk raw ∧ ((old = raw ∧ force = false ∧ r.effect = none) ∨
        ((old ≠ raw ∨ force = true) ∧ 0 ≤ raw ∧ r.effect = some (.dbusSet path raw (busOk path)))) := by
    intro ov mk h
    obtain ⟨raw, h1, (⟨h2, h3, rfl⟩ | ⟨h2, u, h3, rfl⟩)⟩ := dbusTail_spec h
    · exact ⟨raw, h1, by rw [h2], .inl ⟨h2, h3, rfl⟩⟩
    · obtain ⟨q, hq, e, e2, _⟩ := castInt_some h1
      obtain ⟨q', hq', e', e2', l, _⟩ := castInt_some h3
      rw [e] at e'; cases e'
      have : u = raw := by rw [e2, e2']
      subst this
      exact ⟨u, h1, rfl, .inr ⟨h2, l, rfl⟩⟩
  cases limits with
  | none => exact key v (.dbusRaw path) h
  | some l => exact key _ (.dbusPercent path l.1 l.2) h

/-- the raw value of the last command of a history, -1 before the first one -/
def lastRaw (limits : Option (Int × Int)) (h : List Command) : Int :=
  ((h.getLast?.bind (fun c => rawCommand limits c.value))).getD (-1)

theorem commands_writer {path : String} {limits : Option (Int × Int)} {h : List Command} {wr : Writer}
    (hc : Commands (freshDbus path limits) h wr) : wr = dbusWith path limits (lastRaw limits h) := by
  induction hc with
  | nil => cases limits <;> rfl
  | @snoc h wr r busOk v force _ hw ih =>
    rw [ih] at hw
    obtain ⟨raw, h1, h2, _⟩ := dbusWith_write hw
    rw [h2, lastRaw, List.getLast?_concat]
    simp [h1]

/-- C46: at any point of any history of commands to a D-Bus fan, a further command sends a message exactly when it is
forced or its raw value differs from that of the command before (-1 if there is none). The message goes to the fan and
carries the raw value. -/
theorem C46_sent_iff {path : String} {limits : Option (Int × Int)} {h : List Command} {c : Command} {wr : Writer}
    (hc : Commands (freshDbus path limits) (h ++ [c]) wr) :
    ∃ raw, rawCommand limits c.value = some raw ∧ (c.sent ≠ none ↔ (c.force = true ∨ raw ≠ lastRaw limits h)) ∧
      ∀ e, c.sent = some e → ∃ ok, e = .dbusSet path raw ok := by
  generalize hh : h ++ [c] = h' at hc
  cases hc with
  | nil => simp at hh
  | @snoc h'' wr r busOk v force hp hw =>
    obtain ⟨rfl, hcc⟩ := List.append_inj' hh rfl
    obtain rfl : c = ⟨v, force, r.effect⟩ := by simpa using hcc
    rw [commands_writer hp] at hw
    obtain ⟨raw, h1, _, (⟨h2, h3, h4⟩ | ⟨h2, _, h4⟩)⟩ := dbusWith_write hw
    · refine ⟨raw, h1, ?_, ?_⟩
      · simp [h4, h3, h2]
      · simp [h4]
    · refine ⟨raw, h1, ?_, ?_⟩
      · simp only [h4, ne_eq, reduceCtorEq, not_false_eq_true, true_iff]
        rcases h2 with h2 | h2
        · exact .inr (fun e => h2 e.symm)
        · exact .inl h2
      · intro e he
        rw [h4] at he; cases he
        exact ⟨_, rfl⟩

theorem fanTarget_append (t0 : Int) (es es' : List Effect) : fanTarget t0 (es ++ es') = fanTarget (fanTarget t0 es) es' := by
  induction es generalizing t0 with
  | nil => rfl
  | cons e es ih =>
    rcases e with ⟨p, v, _ | _⟩ | ⟨p, v⟩ <;> exact ih _

/-- C47: after any history of commands in which something was sent, if the last message succeeded then the fan's target
is the raw value of the last command. -/
theorem C47_target {path : String} {limits : Option (Int × Int)} {h : List Command} {wr : Writer} {e : Effect} {t0 : Int}
    (hc : Commands (freshDbus path limits) h wr) (hl : (messages h).getLast? = some e)
    (hok : ∃ v, e = .dbusSet path v true) : fanTarget t0 (messages h) = lastRaw limits h := by
  induction hc with
  | nil => cases hl
  | @snoc h wr r busOk v force hp hw ih =>
    rw [commands_writer hp] at hw
    obtain ⟨raw, h1, _, h3⟩ := dbusWith_write hw
    have hlast : lastRaw limits (h ++ [⟨v, force, r.effect⟩]) = raw := by
      rw [lastRaw, List.getLast?_concat]; simp [h1]
    rw [hlast]
    rcases h3 with ⟨h4, _, h6⟩ | ⟨_, _, h6⟩
    · have hm : messages (h ++ [⟨v, force, r.effect⟩]) = messages h := by simp [messages, h6]
      rw [hm] at hl ⊢
      rw [ih hl, h4]
    · have hm : messages (h ++ [⟨v, force, r.effect⟩]) = messages h ++ [.dbusSet path raw (busOk path)] := by
        simp [messages, h6]
      rw [hm] at hl ⊢
      rw [List.getLast?_concat] at hl
      cases hl
      obtain ⟨v', hv⟩ := hok
      have hb : busOk path = true := by injection hv
      rw [fanTarget_append, hb]
      rfl

/-- C47: something was sent as soon as one command had a nonnegative raw value. -/
theorem C47_sent {path : String} {limits : Option (Int × Int)} {h : List Command} {wr : Writer}
    (hc : Commands (freshDbus path limits) h wr) {c : Command} (hm : c ∈ h) {raw : Int}
    (hr : rawCommand limits c.value = some raw) (hp : raw ≠ -1) : messages h ≠ [] := by
  have key : messages h = [] → ∀ c ∈ h, rawCommand limits c.value = some (-1) := by
    clear hm hr
    induction hc with
    | nil => simp
    | @snoc h wr r busOk v force hp' hw ih =>
      intro he
      have he1 : messages h = [] := by
        simp only [messages, List.filterMap_append, List.append_eq_nil_iff] at he
        exact he.1
      have he2 : r.effect = none := by
        simp only [messages, List.filterMap_append, List.append_eq_nil_iff] at he
        cases hr : r.effect with
        | none => rfl
        | some e => simp [hr] at he
      have hl : lastRaw limits h = -1 := by
        unfold lastRaw
        cases hg : h.getLast? with
        | none => rfl
        | some c => simp [ih he1 c (List.mem_of_getLast? hg)]
      rw [commands_writer hp', hl] at hw
      obtain ⟨raw', h1, _, (⟨h4, _, _⟩ | ⟨_, _, h6⟩)⟩ := dbusWith_write hw
      · intro c hc
        rcases List.mem_append.1 hc with hc | hc
        · exact ih he1 c hc
        · rw [List.mem_singleton.1 hc, h1, ← h4]
      · rw [he2] at h6; cases h6
  intro he
  rw [key he c hm] at hr
  cases hr
  exact hp rfl

/-- C47 (finding): a message that failed is not sent again; however often the same value is commanded without force, the
fan keeps its old target. -/
theorem C47_not_retried {path : String} {limits : Option (Int × Int)} {h h' : List Command} {c : Command} {wr wr' : Writer}
    {raw : Int} (hc : Commands (freshDbus path limits) (h ++ [c]) wr) (hf : c.sent = some (.dbusSet path raw false))
    (hc' : Commands wr h' wr') (hsame : ∀ c' ∈ h', c'.value = c.value ∧ c'.force = false) (t0 : Int) :
    messages h' = [] ∧ fanTarget t0 (messages (h ++ [c] ++ h')) = fanTarget t0 (messages h) := by
  have hw := commands_writer hc
  obtain ⟨raw', hr, _, _⟩ := C46_sent_iff hc
  have hl : lastRaw limits (h ++ [c]) = raw' := by
    rw [lastRaw, List.getLast?_concat]; simp [hr]
  rw [hl] at hw
  have key : messages h' = [] ∧ wr' = wr := by
    induction hc' with
    | nil => exact ⟨rfl, rfl⟩
    | @snoc h'' wr1 r busOk v force _ hw1 ih =>
      obtain ⟨a, b⟩ := ih (fun c' hc' => hsame c' (List.mem_append_left _ hc'))
      obtain ⟨e1, e2⟩ := hsame ⟨v, force, r.effect⟩ (by simp)
      simp only at e1 e2
      subst e1 e2
      rw [b, hw] at hw1
      obtain ⟨raw2, h1, h2, h3⟩ := dbusWith_write hw1
      rw [hr] at h1; cases h1
      rcases h3 with ⟨_, _, h6⟩ | ⟨h4, _⟩
      · refine ⟨?_, by rw [h2, hw]⟩
        simp only [messages, List.filterMap_append] at a ⊢
        rw [a]; simp [h6]
      · simp at h4
  refine ⟨key.1, ?_⟩
  have e1 : messages (h ++ [c] ++ h') = messages h ++ [.dbusSet path raw false] := by
    have := key.1
    simp only [messages, List.filterMap_append] at this ⊢
    rw [this]; simp [hf]
  rw [e1, fanTarget_append]
  rfl

/-- C47, sysfs fans: every command is written, so the file holds the value of the last one. -/
theorem C47_sysfs {path : String} {min max : Int} {busOk : String → Bool} {v : Dbl} {force : Bool} {r : WriteResult}
    (h : (Writer.sysfsPercent path min max).write busOk v force = .ok r) :
    ∃ raw, rawCommand (some (min, max)) v = some raw ∧ r.effect = some (.sysfsWrite path raw) ∧
      r.writer = .sysfsPercent path min max := by
  obtain ⟨raw, h1, h2⟩ := bind_eq_ok.1 h
  cases h2
  refine ⟨raw, ?_, rfl, rfl⟩
  unfold castOr at h1
  split at h1
  · rename_i a ha; cases h1; exact ha
  · cases h1

end

section
attribute [local instance] binary64

/-- a fan with raw range 30..255 -/
def exFan : Writer := .dbusPercent "/fan0" 30 255 (-1)

example : IsPercent 30 255 exFan := .dbus _ _
example : (0 : Dbl) ≤ 75 / 100 ∧ (75 / 100 : Dbl) ≤ 1 := by decide +kernel
/-- 75% sends 198 (30 + 168.75, truncated) -/
example : ((exFan.write (fun _ => true) (75 / 100) true).toOption.bind (·.effect)) = some (.dbusSet "/fan0" 198 true) := by
  decide +kernel
/-- outside [0, 1] the claim fails: 120% sends 300 -/
example : ((exFan.write (fun _ => true) (120 / 100) true).toOption.bind (·.effect)) = some (.dbusSet "/fan0" 300 true) := by
  decide +kernel

/-- runs commands `(busOk, value, force)` and lists them with what was sent -/
def runCommands (wr : Writer) : List (Bool × Dbl × Bool) → Res (List Command × Writer)
  | [] => .ok ([], wr)
  | (b, v, f) :: cs => do
    let r ← wr.write (fun _ => b) v f
    let (h, wr') ← runCommands r.writer cs
    .ok (⟨v, f, r.effect⟩ :: h, wr')

theorem runCommands_ok {wr0 : Writer} : ∀ {cs : List (Bool × Dbl × Bool)} {wr wr' : Writer} {h h' : List Command},
    Commands wr0 h wr → runCommands wr cs = .ok (h', wr') → Commands wr0 (h ++ h') wr'
  | [], wr, wr', h, h', hc, hr => by
    cases hr; simpa using hc
  | (b, v, f) :: cs, wr, wr', h, h', hc, hr => by
    obtain ⟨r, h1, hr⟩ := bind_eq_ok.1 hr
    obtain ⟨⟨h2, wr2⟩, h3, hr⟩ := bind_eq_ok.1 hr
    cases hr
    have := runCommands_ok (hc.snoc _ v f h1) h3
    simpa using this

/-- two commands with the same raw value send once; a forced one sends again; the fan ends at the last raw value -/
theorem ex_commands : ∃ h wr, Commands (freshDbus "/fan0" (some (30, 255))) h wr ∧
    messages h = [.dbusSet "/fan0" 142 true, .dbusSet "/fan0" 142 true, .dbusSet "/fan0" 30 true] ∧
    h.length = 4 ∧ fanTarget 7 (messages h) = 30 ∧ lastRaw (some (30, 255)) h = 30 := by
  obtain ⟨⟨h, wr⟩, h1, h2⟩ := Ex.ok_of_any (x := runCommands (freshDbus "/fan0" (some (30, 255)))
      [(true, 50 / 100, false), (true, 501 / 1000, false), (true, 50 / 100, true), (true, 0, false)])
    (P := fun r => decide (messages r.1 = [.dbusSet "/fan0" 142 true, .dbusSet "/fan0" 142 true, .dbusSet "/fan0" 30 true] ∧
      r.1.length = 4 ∧ fanTarget 7 (messages r.1) = 30 ∧ lastRaw (some (30, 255)) r.1 = 30)) (by decide +kernel)
  have h3 := runCommands_ok .nil h1
  simp only [decide_eq_true_eq] at h2
  exact ⟨h, wr, by simpa using h3, h2⟩

/-- the failed call for 142 is not repeated: the fan stays at 30 although 142 was commanded three times -/
theorem ex_not_retried : ∃ h wr, Commands (freshDbus "/fan0" (some (30, 255))) h wr ∧ h.length = 4 ∧
    messages h = [.dbusSet "/fan0" 30 true, .dbusSet "/fan0" 142 false] ∧
    fanTarget 7 (messages h) = 30 ∧ lastRaw (some (30, 255)) h = 142 := by
  obtain ⟨⟨h, wr⟩, h1, h2⟩ := Ex.ok_of_any (x := runCommands (freshDbus "/fan0" (some (30, 255)))
      [(true, 0, false), (false, 50 / 100, false), (true, 50 / 100, false), (true, 50 / 100, false)])
    (P := fun r => decide (r.1.length = 4 ∧ messages r.1 = [.dbusSet "/fan0" 30 true, .dbusSet "/fan0" 142 false] ∧
      fanTarget 7 (messages r.1) = 30 ∧ lastRaw (some (30, 255)) r.1 = 142)) (by decide +kernel)
  have h3 := runCommands_ok .nil h1
  simp only [decide_eq_true_eq] at h2
  exact ⟨h, wr, by simpa using h3, h2⟩

end
end Verif
