/-!
# Hash maps

`std::collections::HashMap` as an association list with at most one entry per key. The order
of the list stands for the (unspecified) iteration order, so results that must not depend on
it are proved for every permutation of the list.
-/

namespace PptRs

/-- `HashMap<K, V>`: entries in some iteration order. -/
abbrev AMap (κ : Type) (ν : Type) := List (κ × ν)

namespace AMap

variable {κ ν : Type} [DecidableEq κ]

/-- `HashMap::get`. -/
def get (m : AMap κ ν) (k : κ) : Option ν := (m.find? fun e => e.1 = k).map (·.2)

/-- `HashMap::contains_key`. -/
def has (m : AMap κ ν) (k : κ) : Bool := m.any fun e => e.1 = k

/-- `HashMap::remove` (the map afterwards; the returned value is `get` before). -/
def remove (m : AMap κ ν) (k : κ) : AMap κ ν := m.filter fun e => e.1 ≠ k

/-- `HashMap::insert`: replaces the value of an existing key, otherwise adds an entry. -/
def insert (m : AMap κ ν) (k : κ) (v : ν) : AMap κ ν :=
  if m.has k then m.map fun e => if e.1 = k then (k, v) else e else m ++ [(k, v)]

/-- `HashMap::keys`. -/
def keys (m : AMap κ ν) : List κ := m.map (·.1)

/-- One entry per key, the invariant of a hash map. -/
def Ok (m : AMap κ ν) : Prop := (m.map (·.1)).Nodup

end AMap

end PptRs
