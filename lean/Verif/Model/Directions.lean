import Verif.Data.Directions0
import Verif.Data.Directions1
import Verif.Data.Directions2
import Verif.Data.Directions3
import Verif.Data.Directions4
import Verif.Data.Directions5
import Verif.Data.Directions6
import Verif.Data.Directions7
import Verif.Data.Directions8

/-! # The direction-number table (`src/SALib/sample/directions.py`) -/

namespace SALib

/-- The numbers of a row written in the notation of `Verif/Data`: six decimal digits each, after a
leading 1.  `fuel` bounds the number of entries. -/
def decodeRow : Nat → Nat → List Nat → List Nat
  | 0, _, acc => acc
  | fuel + 1, n, acc =>
    if n ≤ 1 then acc else decodeRow fuel (n / 1000000) (n % 1000000 :: acc)

/-- All rows as written in `Verif/Data`, in chunks. -/
def directionCodes : List (List Nat) :=
  Data.dir1_0 ++ Data.dir2_0 ++ Data.dir3_0 ++ Data.dir4_0 ++ Data.dir5_0 ++ Data.dir6_0 ++
  Data.dir7_0 ++ Data.dir8_0 ++ Data.dir9_0 ++ Data.dir10_0 ++ Data.dir11_0 ++ Data.dir12_0 ++
  Data.dir13_0 ++ Data.dir14_0 ++ Data.dir15_0 ++ Data.dir16_0 ++ Data.dir17_0 ++ Data.dir17_1 ++
  Data.dir17_2 ++ Data.dir18_0 ++ Data.dir18_1 ++ Data.dir18_2

/-- `directions`: `directions.py` 1-21202. -/
def directions : List (List Nat) := directionCodes.flatten.map fun n => decodeRow 32 n []

end SALib
