import Verif.Model.Util

/-! # Specification for zone numbering -/

namespace Verif

/-- A request for a zone number with its answer. -/
structure ZoneRequest where
  name : String
  /-- the number asked for, 0 if none was -/
  wanted : Int
  answer : Int

/-- The requests `h` were made one after the other, starting without zones. -/
inductive Numbered : List ZoneRequest → OMap String Int → Prop
  | start : Numbered [] {}
  | set {h zones zones' r} (name : String) (wanted : Int) : Numbered h zones →
      setZoneIndex name zones wanted = .ok (r, zones') → Numbered (h ++ [⟨name, wanted, r⟩]) zones'
  | get {h zones zones' r} (name : String) : Numbered h zones →
      getZoneIndex name zones = .ok (r, zones') → Numbered (h ++ [⟨name, 0, r⟩]) zones'

end Verif
