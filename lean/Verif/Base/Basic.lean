import Verif.Base.Dbl

/-!
# Error outcomes, `std::map`, string search

Model of the pieces of the C++ library the daemon uses.
-/

namespace Verif

/-- Abnormal outcomes of the modelled code. -/
inductive Err where
  /-- a C++ exception leaves the function -/
  | exc (what : String)
  /-- undefined behaviour: null dereference, out-of-range conversion, read of an uninitialised variable -/
  | ub (what : String)
deriving DecidableEq, Repr

/-- Result of a modelled function that can fail. -/
abbrev Res := Except Err

/-- `static_cast` that is undefined outside the target range. -/
def castOr {α : Type} (what : String) : Option α → Res α
  | some a => .ok a
  | none => .error (.ub what)

/-- `std::map<K, V>`: association list kept in key order, so that iteration order is modelled too. -/
structure OMap (K V : Type) where
  entries : List (K × V)
deriving Repr

namespace OMap
variable {K V : Type}

def empty : OMap K V := ⟨[]⟩

instance : EmptyCollection (OMap K V) := ⟨empty⟩
instance : Inhabited (OMap K V) := ⟨empty⟩

def lookupL [DecidableEq K] (k : K) : List (K × V) → Option V
  | [] => none
  | (k', v) :: t => if k = k' then some v else lookupL k t

/-- `find` -/
def find? [DecidableEq K] (m : OMap K V) (k : K) : Option V := lookupL k m.entries

/-- `find(k) != end()` -/
def contains [DecidableEq K] (m : OMap K V) (k : K) : Bool := (m.find? k).isSome

def insertL [DecidableEq K] [LT K] [DecidableLT K] (k : K) (v : V) : List (K × V) → List (K × V)
  | [] => [(k, v)]
  | (k', v') :: t =>
    if k = k' then (k, v) :: t
    else if k < k' then (k, v) :: (k', v') :: t
    else (k', v') :: insertL k v t

/-- `m[k] = v` -/
def insert [DecidableEq K] [LT K] [DecidableLT K] (m : OMap K V) (k : K) (v : V) : OMap K V :=
  ⟨insertL k v m.entries⟩

/-- `erase(k)` -/
def erase [DecidableEq K] (m : OMap K V) (k : K) : OMap K V :=
  ⟨m.entries.filter (fun e => e.1 ≠ k)⟩

/-- `at(k)`: throws `std::out_of_range` for an unknown key -/
def atKey [DecidableEq K] (m : OMap K V) (k : K) : Res V :=
  match m.find? k with
  | some v => .ok v
  | none => .error (.exc "std::out_of_range")

/-- `empty()` -/
def isEmpty (m : OMap K V) : Bool := m.entries.isEmpty

end OMap

/-- `std::string::find`: position of the first occurrence of `pat`. -/
def findSub (pat : List Char) : List Char → Option Nat
  | [] => if pat = [] then some 0 else none
  | c :: s => if pat.isPrefixOf (c :: s) then some 0 else (findSub pat s).map (· + 1)

/-- `s.find(pat) != std::string::npos` -/
def containsSub (s pat : String) : Bool := (findSub pat.toList s.toList).isSome

/-- `std::min_element` on doubles (first smallest) -/
def minElement [FloatModel] (x : Dbl) (xs : List Dbl) : Dbl :=
  xs.foldl (fun best y => if y < best then y else best) x

end Verif
