import Verif.Tables.Strings
/-!
Model of `src/string_lookup.rs`.  `INDEX_TO_HAND` and `INDEX_TO_COMBO` are in `Verif/Tables/Strings.lean`.
-/
namespace Pokers

/-- A `HashMap` from strings to positions as a function; `HashMap::insert` replaces an earlier value. (src/string_lookup.rs:1335, 1515) -/
def mapInsert (m : List Char → Option Nat) (k : List Char) (v : Nat) : List Char → Option Nat :=
  fun s => if s = k then some v else m s

/-- src/string_lookup.rs:1332-1338 `HAND_TO_INDEX` -/
def HAND_TO_INDEX : List Char → Option Nat :=
  (List.range 1326).foldl (fun m i => mapInsert m (INDEX_TO_HAND.getD i []) i) (fun _ => none)

/-- src/string_lookup.rs:1512-1518 `COMBO_TO_INDEX` -/
def COMBO_TO_INDEX : List Char → Option Nat :=
  (List.range 169).foldl (fun m i => mapInsert m (INDEX_TO_COMBO.getD i []) i) (fun _ => none)

end Pokers
