import Verif.Model.Float

/-!
# Samples written to a file and read back

Every sampler started from the command line writes its sample with
`np.savetxt(args.output, param_values, delimiter=args.delimiter, fmt="%." + str(args.precision) + "e")`
(sample/sobol.py 246-251, sample/saltelli.py 259-264, sample/latin.py 96-101,
sample/fast_sampler.py 130-135, sample/ff.py 142-147, sample/finite_diff.py 117-122,
sample/morris/morris.py 468-473), the precision being 8 unless it is given
(sample/common_args.py 25-34).  Every analysis started from the command line that needs the sample
reads the file with `np.loadtxt(args.model_input_file, delimiter=args.delimiter, …)`
(analyze/morris.py 646, analyze/delta.py 622, analyze/dgsm.py 171, analyze/ff.py 187,
analyze/hdmr.py 1075, analyze/enhanced_hdmr.py 1680, analyze/rbd_fast.py 180, analyze/pawn.py 191,
analyze/rsa.py 269, analyze/discrepancy.py 135), and the model under study reads the same file.

Modelled here: the text that Python's `"%.<p>e"` makes of a number, the lines that `np.savetxt`
makes of an array, and the way `np.loadtxt` turns the text into numbers again, each entry rounded
to the nearest number of the floating-point format.  Texts are lists of characters.  The delimiter
is one character, as `np.loadtxt` demands of a delimiter given to it.  The sign of a zero, numbers
beyond the largest of the format, `nan` and `inf` are left out.
-/

namespace SALib


/-- The last `w` decimal digits of `n`, as characters. -/
def fixedDigits : Nat → Nat → List Char
  | 0, _ => []
  | w + 1, n => fixedDigits w (n / 10) ++ [Nat.digitChar (n % 10)]

/-- The digits and the exponent that `"%.<p>e"` prints for `x`: `p + 1` digits, rounded half to
even, with the exponent raised where the rounding makes one digit more
(`fmt="%." + str(args.precision) + "e"`, sample/sobol.py 250). -/
def sciParts (p : Nat) (x : ℚ) : Nat × ℤ :=
  let e := Int.log 10 |x|
  let m := (roundEven (|x| / (10 : ℚ) ^ (e - p))).toNat
  if m = 10 ^ (p + 1) then (10 ^ p, e + 1) else (m, e)

/-- The exponent: a sign and at least two digits. -/
def expText (e : ℤ) : List Char :=
  (if e < 0 then '-' else '+') :: fixedDigits (max 2 (Nat.log 10 e.natAbs + 1)) e.natAbs

/-- The text of `"%.<p>e" % x`: no point where no digits follow it (sample/sobol.py 250). -/
def sciText (p : Nat) (x : ℚ) : List Char :=
  let ds := fixedDigits (p + 1) (sciParts p x).1
  (if x < 0 then ['-'] else []) ++ ds.take 1 ++ (if p = 0 then [] else '.' :: ds.drop 1) ++
    'e' :: expText (sciParts p x).2

/-- One line of `np.savetxt` (sample/sobol.py 246-251). -/
def lineText (p : Nat) (delim : Char) (row : List ℚ) : List Char :=
  [delim].intercalate (row.map (sciText p))

/-- The file that `np.savetxt` writes: every line ends with a newline (sample/sobol.py 246-251). -/
def fileText (p : Nat) (delim : Char) (X : List (List ℚ)) : List Char :=
  X.flatMap fun row => lineText p delim row ++ ['\n']

/-- Writing with the precision of the command line: a negative one makes `"%.-1e"`, which is no
format, and raises a `ValueError` (`none`) (sample/sobol.py 246-251, sample/common_args.py 28-34). -/
def writeFile (p : ℤ) (delim : Char) (X : List (List ℚ)) : Option (List Char) :=
  if p < 0 then none else some (fileText p.toNat delim X)

/-- The natural number that some digits stand for. -/
def readDigits (cs : List Char) : Nat := cs.foldl (fun a c => 10 * a + (c.toNat - 48)) 0

/-- A text of at least one digit. -/
def allDigits (cs : List Char) : Bool := !cs.isEmpty && cs.all Char.isDigit

/-- A sign, if there is one, and the rest of the text. -/
def splitSign : List Char → Bool × List Char
  | '-' :: cs => (true, cs)
  | '+' :: cs => (false, cs)
  | cs => (false, cs)

/-- The exponent of a number: nothing, or `e` and a whole number. -/
def readExp : List Char → Option ℤ
  | [] => some 0
  | _ :: cs =>
    let s := splitSign cs
    if allDigits s.2 then some (if s.1 then -(readDigits s.2 : ℤ) else readDigits s.2) else none

/-- The number that an entry of the file stands for, where it is one (`np.loadtxt` of `float`s,
e.g. analyze/morris.py 646): sign, digits with at most one point, exponent. -/
def readNumber (cs : List Char) : Option ℚ :=
  let s := splitSign cs
  let mant := s.2.takeWhile (· != 'e')
  let ip := mant.takeWhile (· != '.')
  let fp := (mant.dropWhile (· != '.')).drop 1
  match readExp (s.2.dropWhile (· != 'e')) with
  | none => none
  | some k =>
    if allDigits (ip ++ fp) then
      some ((if s.1 then -1 else 1) * (readDigits (ip ++ fp) : ℚ) * (10 : ℚ) ^ (k - fp.length))
    else none

/-- One line as `np.loadtxt` reads it: what follows a `#` is a comment; the entries between the
delimiters are rounded to the format (analyze/morris.py 646). -/
def readLine (F : Fmt) (delim : Char) (line : List Char) : Option (List ℚ) :=
  ((line.takeWhile (· != '#')).splitOn delim).mapM fun t => (readNumber t).map (fl F)

/-- The array that `np.loadtxt` reads: empty lines are left out, and lines of different lengths or
entries that are no numbers raise a `ValueError` (`none`) (analyze/morris.py 646).  The shape of an
array of one column is the subject of `C96_data`. -/
def readFile (F : Fmt) (delim : Char) (text : List Char) : Option (List (List ℚ)) :=
  let lines := (text.splitOn '\n').filter fun l => !(l.takeWhile (· != '#')).isEmpty
  match lines.mapM (readLine F delim) with
  | none => none
  | some X => if X.all (fun r => r.length == (X.headD []).length) then some X else none

end SALib
