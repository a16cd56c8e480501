import Verif.Lemmas.Clock
import Verif.Props.Whole

/-!
# C137: the date does not matter

A life of the daemon is the same whatever the clock showed when it began. Where no sensor has a timeout, the clock does not matter
at all.
-/

namespace Verif
open Dbl
section
variable [F : FloatModel]

omit F in
theorem shifted_aligned (k : Int) : Aligned (fun a a' => a' = a + k) := by
  intro a a' b b' h1 h2
  subst h1 h2
  omega

theorem shifted_event (k : Int) (e : DEvent) : DEvent.Retimed (fun a a' => a' = a + k) e (e.shifted k) := by
  cases e with
  | outside => exact .outside rfl rfl
  | signal => exact .signal rfl
  | hostWrite => exact .hostWrite rfl
  | manual => exact .manual
  | enable => exact .enable
  | tick => exact .tick

theorem shifted_events (k : Int) : ∀ es : List WEvent, List.Forall₂ (WEvent.Retimed (fun a a' => a' = a + k)) es (es.map (WEvent.shifted k))
  | [] => .nil
  | e :: es => by
    refine .cons ?_ (shifted_events k es)
    cases e with
    | event e => exact .event (shifted_event k e)
    | reload r => exact .reload rfl (fun _ _ _ _ => .inr (shifted_aligned k))

theorem init_worlds {T : Int → Int → Prop} {w : World} {a b : Int} (h1 : T w.nowFans a) (h2 : T w.nowThermals b) :
    WholeLike T (Whole.init w) (Whole.init { w with nowFans := a, nowThermals := b }) :=
  ⟨⟨⟨h1, h2, rfl, fun n => by
    show Maybe _ (OMap.find? {} n) (OMap.find? {} n)
    rw [OMap.find?_empty]; exact .none⟩, rfl⟩, rfl, rfl, rfl⟩

/-- C137: the same life with the clock ahead (or behind) by `k` ends the same way: with the same error, or with the same zones and
the same commands to the fans. -/
theorem C137_date (o : Opts) (k : Int) (w : World) (es : List WEvent) :
    ((Whole.init (w.shifted k)).run o (es.map (WEvent.shifted k))).map Whole.seen = ((Whole.init w).run o es).map Whole.seen :=
  ((WholeLike.run (init_worlds (T := fun a a' => a' = a + k) rfl rfl) (shifted_events k es)).map_eq (fun _ _ h => (WholeLike.seen h).symm)).symm

/-- C137: so does its end. -/
theorem C137_date_end (o : Opts) (k : Int) (w : World) (es : List WEvent) :
    ((Whole.init (w.shifted k)).run o (es.map (WEvent.shifted k)) >>= Whole.terminate o).map World.trace =
      ((Whole.init w).run o es >>= Whole.terminate o).map World.trace := by
  refine (((WholeLike.run (init_worlds (T := fun a a' => a' = a + k) rfl rfl) (shifted_events k es)).bind
    (fun _ _ h => WholeLike.stop h)).map_eq (fun _ _ h => ?_)).symm
  rw [h.rest]

theorem timeless_event {e e' : DEvent} (h : e.timeless = e'.timeless) : DEvent.Retimed (fun _ _ => True) e e' := by
  cases e <;> cases e' <;> cases h
  · exact .outside trivial trivial
  · exact .signal trivial
  · exact .hostWrite trivial
  · exact .manual
  · exact .enable
  · exact .tick

theorem timeless_events : ∀ {es es' : List WEvent}, es.map WEvent.timeless = es'.map WEvent.timeless → NoTimeouts es →
    List.Forall₂ (WEvent.Retimed (fun _ _ => True)) es es'
  | [], [], _, _ => .nil
  | [], _ :: _, h, _ => by cases h
  | _ :: _, [], h, _ => by cases h
  | e :: es, e' :: es', h, hn => by
    rw [List.map_cons, List.map_cons] at h
    injection h with h1 h2
    refine .cons ?_ (timeless_events h2 (fun r hr => hn r (List.mem_cons_of_mem _ hr)))
    cases e with
    | event e =>
      cases e' with
      | event e' => injection h1 with h1; exact .event (timeless_event h1)
      | reload r' => cases h1
    | reload r =>
      cases e' with
      | event e' => cases h1
      | reload r' =>
        injection h1 with h1
        obtain ⟨a1, a2, a3, a4, a5, a6, a7⟩ := r
        obtain ⟨b1, b2, b3, b4, b5, b6, b7⟩ := r'
        cases h1
        exact .reload (now' := b6) trivial (fun c hc x hx => .inl (hn _ List.mem_cons_self c hc x hx))

/-- C137: where no configuration gives a sensor a timeout, two lives with the same events end the same way whatever the clock shows
at any moment, however it is set meanwhile. -/
theorem C137_no_timeouts {o : Opts} {w w' : World} {es es' : List WEvent} (hw : w' = { w with nowFans := w'.nowFans, nowThermals := w'.nowThermals })
    (he : es.map WEvent.timeless = es'.map WEvent.timeless) (hn : NoTimeouts es) :
    ((Whole.init w').run o es').map Whole.seen = ((Whole.init w).run o es).map Whole.seen := by
  rw [hw]
  exact ((WholeLike.run (init_worlds trivial trivial) (timeless_events he hn)).map_eq (fun _ _ h => (WholeLike.seen h).symm)).symm

end

namespace Ex
section
attribute [local instance] binary64

/-- the clock shows this many seconds -/
def clock137 (t : Int) : WEvent := .event (.outside (t * 1000000000) (t * 1000000000) true [] (fun _ => .blank) (fun _ => true))

/-- the sensors report -/
def report137 (t : Int) : List WEvent :=
  ["cpu", "fan0"].map (fun n => .event (.signal n (t * 1000000000) ⟨ifSensorValue, OMap.insert {} "Value" (.int 30)⟩))

/-- the file of C113, in which the processor's sensor times out after two seconds, and a clock ahead by `k` seconds -/
def life137 (k : Int) : List WEvent :=
  [clock137 k, .reload { found123 files113 noConfig true with now := k * 1000000000 }] ++
  (clock137 (k + 1) :: report137 (k + 1)) ++ [.event (.tick 3), clock137 (k + 2), .event (.tick 3), clock137 (k + 3), .event (.tick 3)]

/-- the fan is told 20 % twice, and 75 % when the reports have stopped for two seconds; so it is fifty years later -/
theorem C137_fifty_years : (((Whole.init world113).run {} (life137 0)).toOption.map (fun s => s.d.w.trace)) =
      some [.sysfsWrite "/sys/class/hwmon/pwm1" 51, .sysfsWrite "/sys/class/hwmon/pwm1" 51, .sysfsWrite "/sys/class/hwmon/pwm1" 191] ∧
    (((Whole.init (world113.shifted (1577880000 * 1000000000))).run {} (life137 1577880000)).map Whole.seen) =
      ((Whole.init world113).run {} (life137 0)).map Whole.seen := by
  refine ⟨by decide +kernel, ?_⟩
  have e : life137 1577880000 = (life137 0).map (WEvent.shifted (1577880000 * 1000000000)) := by
    rfl
  rw [e]
  exact C137_date _ _ _ _

/-- the same file with a processor's sensor that does not time out -/
def found137 (t : Int) : Found := { found123 (files108 ["/var/lib/swampd/config.json"] (some (.obj [("sensors", .arr [sensorFan113, .obj
  [("name", .str "cpu"), ("readPath", .str "/xyz/openbmc_project/sensors/temperature/cpu"), ("timeout", .int 0), ("type", .str "temp")]]),
  ("zones", .arr [zone113])])) (by decide) (by decide)) noConfig true with now := t }

def untimed137 : ConfigRead → Bool
  | .got c => c.sensors.entries.all (fun x => x.2.timeout == 0)
  | _ => true

def jumps137 (a b c : Int) : List WEvent :=
  [clock137 a, .reload (found137 a), clock137 b] ++ report137 b ++ [.event (.tick 3), clock137 c, .event (.tick 3), .event (.tick 3)]

/-- C137_no_timeouts: however the clock is set, the fan is told 20 % -/
example (a b c : Int) : ((Whole.init world113).run {} (jumps137 a b c)).map Whole.seen =
      ((Whole.init world113).run {} (jumps137 0 1 2)).map Whole.seen ∧
    (((Whole.init world113).run {} (jumps137 0 1 2)).toOption.map (fun s => s.d.w.trace)) =
      some [.sysfsWrite "/sys/class/hwmon/pwm1" 51, .sysfsWrite "/sys/class/hwmon/pwm1" 51, .sysfsWrite "/sys/class/hwmon/pwm1" 51] := by
  refine ⟨C137_no_timeouts rfl rfl ?_, by decide +kernel⟩
  intro r hr c hc x hx
  have hr : r = found137 0 := by
    simp only [jumps137, clock137, report137, List.mem_append, List.mem_cons, List.mem_map, List.not_mem_nil] at hr
    simpa using hr
  subst hr
  have h : untimed137 (found137 0).read = true := by decide +kernel
  rw [hc] at h
  simpa using List.all_eq_true.1 h x hx

/-- Finding: the age of a reading is measured with `high_resolution_clock` (pid/zone.hpp:146-161), which is the settable clock of
the system where the C++ library is GNU's. The sensors have just reported when somebody sets the clock ahead by an
hour: the processor's sensor counts as timed out and the fan goes to its failsafe speed. -/
theorem C137_set_ahead : (((Whole.init world113).run {}
      ([clock137 0, .reload (found123 files113 noConfig true), clock137 1] ++ report137 1 ++ [.event (.tick 3), clock137 3601, .event (.tick 3), .event (.tick 3)])).toOption.map
        (fun s => s.d.w.trace)) =
    some [.sysfsWrite "/sys/class/hwmon/pwm1" 51, .sysfsWrite "/sys/class/hwmon/pwm1" 51, .sysfsWrite "/sys/class/hwmon/pwm1" 191] := by decide +kernel

/-- Finding: somebody sets the clock back by an hour, and the sensors fall silent: they are trusted for another hour. -/
theorem C137_set_back : (((Whole.init world113).run {}
      ([clock137 3600, .reload { found123 files113 noConfig true with now := 3600 * 1000000000 }, clock137 3601] ++ report137 3601 ++
        [.event (.tick 3), clock137 1, .event (.tick 3), clock137 1800, .event (.tick 3), clock137 3602, .event (.tick 3),
         clock137 3603, .event (.tick 3)])).toOption.map (fun s => s.d.w.trace)) =
    some [.sysfsWrite "/sys/class/hwmon/pwm1" 51, .sysfsWrite "/sys/class/hwmon/pwm1" 51, .sysfsWrite "/sys/class/hwmon/pwm1" 51,
      .sysfsWrite "/sys/class/hwmon/pwm1" 51, .sysfsWrite "/sys/class/hwmon/pwm1" 191] := by decide +kernel

end
end Ex
end Verif
