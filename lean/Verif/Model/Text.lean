import Verif.Model.Out
import Verif.Model.Mesh
import Mathlib.Data.Nat.Digits.Defs
import Mathlib.Data.Int.Log
import Mathlib.Data.Rat.Floor
/-
Text layer used by the stream classes: lines, whitespace, numbers.
Models /repo/src/include/io/Line/line.h and the parts of the C++ standard library (libstdc++, "C" locale, decimal base)
that the stream classes rely on. Strings are lists of characters.
-/
namespace City

/-- `readlines`: line.h:108-112 with `std::getline`, line.h:89-93. A text is cut at each '\n'; the last line needs no
'\n'; nothing is produced after a final '\n'. -/
def readlines : Text → List Text
  | [] => []
  | c :: cs =>
    if c = '\n' then [] :: readlines cs
    else match readlines cs with
      | [] => [[c]]
      | l :: ls => (c :: l) :: ls

/-- `std::isspace` of the "C" locale. -/
def isSpace (c : Char) : Bool :=
  c == ' ' || c == '\t' || c == '\n' || c == '\x0b' || c == '\x0c' || c == '\r'

/-- Decimal digits. -/
def isDigit (c : Char) : Bool := decide (48 ≤ c.toNat ∧ c.toNat ≤ 57)

/-- Value of a digit. -/
def digitVal (c : Char) : Nat := c.toNat - 48

/-- The digit of a value below ten. -/
def digitChar (n : Nat) : Char := Char.ofNat (48 + n)

/-- Value of a string of digits. -/
def natVal (t : Text) : Nat := t.foldl (fun v c => 10 * v + digitVal c) 0

/-- `ostream << size_t`: decimal digits without leading zeros. -/
def natText (n : Nat) : Text := if n = 0 then ['0'] else (Nat.digits 10 n).reverse.map digitChar

/-- `std::ws`-like skipping done by the formatted extractors. -/
def skipWs (t : Text) : Text := t.dropWhile isSpace

/-- 2^64, the number of values of `std::size_t`. -/
def szMod : Nat := 2 ^ 64

/-- An optional sign; `true` for a minus. -/
def takeSign : Text → Bool × Text
  | '-' :: t => (true, t)
  | '+' :: t => (false, t)
  | t => (false, t)

/-- Result of a formatted extraction: a value and the rest of the stream, or a failure (the stream is then unusable)
with the value stored in the variable. -/
inductive Extract (α : Type)
  | got (v : α) (rest : Text)
  | fail (stored : Option α)
  deriving DecidableEq

/-- `istream >> std::size_t` (`num_get`): whitespace, optional sign, digits. No digit: failure, 0 stored (at the end
of the stream nothing is stored); a magnitude of 2^64 or more: failure, the maximum stored; a minus sign negates
modulo 2^64. -/
def scanNat (t : Text) : Extract Nat :=
  let t := skipWs t
  if t = [] then .fail none
  else
    let (neg, t) := takeSign t
    let ds := t.takeWhile isDigit
    let rest := t.dropWhile isDigit
    if ds = [] then .fail (some 0)
    else if szMod ≤ natVal ds then .fail (some (szMod - 1))
    else .got (if neg then (szMod - natVal ds) % szMod else natVal ds) rest

/-- The digits after a '.', if there is one. -/
def takeFrac : Text → Text × Text
  | '.' :: t => (t.takeWhile isDigit, t.dropWhile isDigit)
  | t => ([], t)

/-- The exponent part: `none` when an 'e' is not followed by digits (the conversion of libstdc++ fails then). -/
def takeExp : Text → Option (Int × Text)
  | c :: t =>
    if c = 'e' ∨ c = 'E' then
      let (neg, t) := takeSign t
      let ds := t.takeWhile isDigit
      if ds = [] then none
      else some ((if neg then -(natVal ds : Int) else natVal ds), t.dropWhile isDigit)
    else some (0, c :: t)
  | [] => some (0, [])

/-- The smallest magnitude that does not round to a finite double. -/
def dblOverflow : ℚ := 2 ^ 1024 - 2 ^ 970

/-- `istream >> double` (`num_get`): whitespace, optional sign, digits with optional '.', optional exponent; the value
is the exact decimal. Failure when no digit is found, on an incomplete exponent and on overflow. -/
def scanDec (t : Text) : Option (ℚ × Text) :=
  let (neg, t) := takeSign (skipWs t)
  let ds := t.takeWhile isDigit
  let t := t.dropWhile isDigit
  let (fs, t) := takeFrac t
  if ds = [] ∧ fs = [] then none
  else match takeExp t with
    | none => none
    | some (e, rest) =>
      let v : ℚ := (natVal (ds ++ fs) : ℚ) * (10 : ℚ) ^ (e - fs.length)
      if dblOverflow ≤ v then none
      else some (if neg then -v else v, rest)

theorem length_skipWs_le (t : Text) : (skipWs t).length ≤ t.length := (List.dropWhile_sublist _).length_le

theorem length_takeSign_le (t : Text) : (takeSign t).2.length ≤ t.length := by
  unfold takeSign; split <;> simp

theorem dropWhile_lt {p : Char → Bool} {t : Text} (h : t.takeWhile p ≠ []) :
    (t.dropWhile p).length < t.length := by
  have := congrArg List.length (List.takeWhile_append_dropWhile (p := p) (l := t))
  rw [List.length_append] at this
  have : 0 < (t.takeWhile p).length := List.length_pos_iff.2 h
  omega

theorem scanNat_lt {t rest : Text} {v : Nat} (h : scanNat t = .got v rest) : rest.length < t.length := by
  unfold scanNat at h
  simp only at h
  split at h
  · cases h
  · split at h
    · cases h
    · rename_i hne
      split at h
      · cases h
      · cases h
        have := dropWhile_lt hne
        have h1 := length_takeSign_le (skipWs t)
        have h2 := length_skipWs_le t
        omega

theorem length_takeFrac_le (t : Text) : (takeFrac t).2.length ≤ t.length := by
  unfold takeFrac; split
  · have := (List.dropWhile_sublist isDigit (l := ‹Text›)).length_le; simp; omega
  · simp

theorem length_takeFrac_lt {t : Text} (h : (takeFrac t).1 ≠ []) : (takeFrac t).2.length < t.length := by
  unfold takeFrac at *; split
  · have := (List.dropWhile_sublist isDigit (l := ‹Text›)).length_le; simp; omega
  · simp at h

theorem length_takeExp_le {t rest : Text} {e : Int} (h : takeExp t = some (e, rest)) : rest.length ≤ t.length := by
  unfold takeExp at h
  split at h
  · split at h
    · simp only at h
      split at h
      · cases h
      · rename_i c t' _ hne
        cases h
        have := dropWhile_lt hne
        have h1 := length_takeSign_le t'
        simp; omega
    · cases h; simp
  · cases h; simp

theorem scanDec_lt {t rest : Text} {v : ℚ} (h : scanDec t = some (v, rest)) : rest.length < t.length := by
  unfold scanDec at h
  simp only at h
  split at h
  · cases h
  · rename_i hne
    split at h
    · cases h
    · rename_i e rest' he
      split at h
      · cases h
      · cases h
        have h0 := length_takeExp_le he
        have h1 := length_takeSign_le (skipWs t)
        have h2 := length_skipWs_le t
        set s := (takeSign (skipWs t)).2
        have h3 := length_takeFrac_le (s.dropWhile isDigit)
        by_cases hd : s.takeWhile isDigit = []
        · have hf : (takeFrac (s.dropWhile isDigit)).1 ≠ [] := fun hf => hne ⟨hd, hf⟩
          have := length_takeFrac_lt hf
          have := (List.dropWhile_sublist isDigit (l := s)).length_le
          omega
        · have := dropWhile_lt hd
          omega

/-- `std::copy(istream_iterator<std::size_t>(stream), {}, ...)`: all the integers up to the first failure. -/
def scanNats (t : Text) : List Nat :=
  match h : scanNat t with
  | .got v rest => have := scanNat_lt h; v :: scanNats rest
  | .fail _ => []
termination_by t.length

/-- `std::copy(istream_iterator<double>(stream), {}, ...)`: all the numbers up to the first failure. `rnd` is the
conversion of an exact decimal to a double. -/
def scanDecs (rnd : ℚ → ℚ) (t : Text) : List ℚ :=
  match h : scanDec t with
  | some (v, rest) => have := scanDec_lt h; rnd v :: scanDecs rnd rest
  | none => []
termination_by t.length

/-! ### `ostream << double` : `printf("%.6g")` -/

/-- Rounding to the nearest integer, ties to even (the rounding of glibc's `printf`). -/
def roundEven (q : ℚ) : Nat :=
  let f := ⌊q⌋₊
  let r := q - f
  if r < 1 / 2 then f else if 1 / 2 < r then f + 1 else if f % 2 = 0 then f else f + 1

/-- Six significant digits of a positive number: `(m, e)` with `10^5 ≤ m < 10^6` stands for `m * 10^(e-5)`. -/
def sixDigits (q : ℚ) : Nat × Int :=
  let k := Int.log 10 q
  let m := roundEven (q / (10 : ℚ) ^ (k - 5))
  if m = 10 ^ 6 then (10 ^ 5, k + 1) else (m, k)

/-- Removal of the trailing zeros of a fraction. -/
def rstrip0 (t : Text) : Text := (t.reverse.dropWhile (· == '0')).reverse

/-- A fraction with its point; `%g` prints no point without fraction. -/
def fracText (t : Text) : Text := if t = [] then [] else '.' :: t

/-- Exponents have at least two digits. -/
def expText (e : Int) : Text :=
  'e' :: (if e < 0 then '-' else '+') :: (if e.natAbs < 10 then '0' :: natText e.natAbs else natText e.natAbs)

/-- `%.6g` of a positive number with digits `m` and exponent `e`. -/
def gText (m : Nat) (e : Int) : Text :=
  let d := natText m
  if e < -4 ∨ 6 ≤ e then d.take 1 ++ fracText (rstrip0 (d.drop 1)) ++ expText e
  else if 0 ≤ e then d.take (e.toNat + 1) ++ fracText (rstrip0 (d.drop (e.toNat + 1)))
  else '0' :: fracText (rstrip0 (List.replicate ((-e).toNat - 1) '0' ++ d))

/-- `ostream << double` with the default format and precision (no stream of the code changes them). -/
def dblText (x : ℚ) : Text :=
  if x = 0 then ['0']
  else if x < 0 then '-' :: gText (sixDigits (-x)).1 (sixDigits (-x)).2
  else gText (sixDigits x).1 (sixDigits x).2

end City
