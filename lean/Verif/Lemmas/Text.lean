import Verif.Model.Text
import Mathlib.Data.Nat.Digits.Lemmas
import Mathlib.Data.List.TakeWhile
import Mathlib.Tactic.Linarith
import Mathlib.Tactic.Ring
import Mathlib.Tactic.FieldSimp
/-! Lemmas about lines, digits and integer tokens. -/
namespace City

theorem readlines_line {l : Text} (h : '\n' ∉ l) (rest : Text) :
    readlines (l ++ '\n' :: rest) = l :: readlines rest := by
  induction l with
  | nil => simp [readlines]
  | cons c l ih =>
    have hc : c ≠ '\n' := fun e => h (by simp [e])
    rw [List.cons_append, readlines, if_neg hc, ih fun e => h (by simp [e])]

/-- Lines written with `std::endl`. -/
def unlines (ls : List Text) : Text := ls.flatMap (· ++ ['\n'])

theorem unlines_cons (l : Text) (ls : List Text) : unlines (l :: ls) = l ++ '\n' :: unlines ls := by
  simp [unlines]

theorem unlines_append (a b : List Text) : unlines (a ++ b) = unlines a ++ unlines b := by
  simp [unlines]

theorem readlines_unlines {ls : List Text} (h : ∀ l ∈ ls, '\n' ∉ l) : readlines (unlines ls) = ls := by
  induction ls with
  | nil => rfl
  | cons l ls ih =>
    rw [unlines_cons, readlines_line (h l (by simp)), ih fun l hl => h l (by simp [hl])]

theorem isDigit_digitChar {n : Nat} (h : n < 10) : isDigit (digitChar n) = true := by
  have : ∀ n : Fin 10, isDigit (digitChar n) = true := by decide
  exact this ⟨n, h⟩

theorem digitVal_digitChar {n : Nat} (h : n < 10) : digitVal (digitChar n) = n := by
  have : ∀ n : Fin 10, digitVal (digitChar n) = n := by decide
  exact this ⟨n, h⟩

theorem foldl_digits (t : Text) (v : Nat) :
    t.foldl (fun v c => 10 * v + digitVal c) v = v * 10 ^ t.length + natVal t := by
  unfold natVal
  induction t generalizing v with
  | nil => simp
  | cons c t ih =>
    simp only [List.foldl_cons, List.length_cons]
    rw [ih, ih (10 * 0 + digitVal c)]
    ring

theorem natVal_append (a b : Text) : natVal (a ++ b) = natVal a * 10 ^ b.length + natVal b := by
  rw [natVal, List.foldl_append, foldl_digits]
  rfl

@[simp] theorem natVal_nil : natVal [] = 0 := rfl

theorem natVal_cons (c : Char) (t : Text) : natVal (c :: t) = digitVal c * 10 ^ t.length + natVal t := by
  have := natVal_append [c] t
  simpa [natVal] using this

theorem natVal_zeros (n : Nat) : natVal (List.replicate n '0') = 0 := by
  induction n with
  | zero => rfl
  | succ n ih => rw [List.replicate_succ, natVal_cons, ih]; simp [digitVal]

theorem digits_map_val (l : List Nat) (h : ∀ d ∈ l, d < 10) :
    natVal ((l.reverse).map digitChar) = Nat.ofDigits 10 l := by
  induction l with
  | nil => rfl
  | cons a l ih =>
    rw [List.reverse_cons, List.map_append, natVal_append, ih fun d hd => h d (by simp [hd]), Nat.ofDigits_cons]
    simp [natVal, digitVal_digitChar (h a (by simp))]
    ring

theorem natVal_natText (n : Nat) : natVal (natText n) = n := by
  unfold natText
  split
  · subst n; rfl
  · rw [digits_map_val _ fun d hd => Nat.digits_lt_base (by norm_num) hd, Nat.ofDigits_digits]

theorem natText_ne_nil (n : Nat) : natText n ≠ [] := by
  unfold natText
  split
  · simp
  · simp [Nat.digits_ne_nil_iff_ne_zero.2 ‹_›]

theorem natText_digits (n : Nat) : ∀ c ∈ natText n, isDigit c = true := by
  unfold natText
  split
  · intro c hc; simp at hc; subst hc; decide
  · intro c hc
    simp only [List.mem_map, List.mem_reverse] at hc
    obtain ⟨d, hd, rfl⟩ := hc
    exact isDigit_digitChar (Nat.digits_lt_base (by norm_num) hd)

theorem natText_length {n k : Nat} (h1 : 10 ^ k ≤ n) (h2 : n < 10 ^ (k + 1)) : (natText n).length = k + 1 := by
  have h0 : n ≠ 0 := by
    have : 0 < 10 ^ k := by positivity
    omega
  unfold natText
  rw [if_neg h0, List.length_map, List.length_reverse, Nat.length_digits 10 n (by norm_num) h0]
  congr 1
  exact (Nat.log_eq_iff (by omega)).2 ⟨h1, h2⟩

/-- A rest that does not continue a number: nothing or whitespace. -/
def Stop (t : Text) : Prop := ∀ c, t.head? = some c → isSpace c = true

theorem stop_nil : Stop [] := by intro c hc; simp at hc
theorem stop_space {c : Char} {t : Text} (h : isSpace c = true) : Stop (c :: t) := by
  intro d hd; simp at hd; rwa [← hd]

theorem not_digit_of_space {c : Char} (h : isSpace c = true) : isDigit c = false := by
  unfold isSpace at h
  simp only [Bool.or_eq_true, beq_iff_eq] at h
  rcases h with ((((rfl | rfl) | rfl) | rfl) | rfl) | rfl <;> decide

theorem not_space_of_digit {c : Char} (h : isDigit c = true) : isSpace c = false := by
  by_contra hs
  rw [Bool.not_eq_false] at hs
  rw [not_digit_of_space hs] at h
  cases h

theorem takeWhile_digits {a rest : Text} (ha : ∀ c ∈ a, isDigit c = true)
    (hr : ∀ c, rest.head? = some c → isDigit c = false) :
    (a ++ rest).takeWhile isDigit = a ∧ (a ++ rest).dropWhile isDigit = rest := by
  induction a with
  | nil =>
    cases rest with
    | nil => simp
    | cons c r => simp [hr c rfl]
  | cons c a ih =>
    have := ih fun d hd => ha d (by simp [hd])
    simp [ha c (by simp), this]

theorem stop_not_digit {t : Text} (h : Stop t) : ∀ c, t.head? = some c → isDigit c = false :=
  fun c hc => not_digit_of_space (h c hc)

theorem skipWs_of_head {t : Text} (h : ∀ c, t.head? = some c → isSpace c = false) : skipWs t = t := by
  cases t with
  | nil => rfl
  | cons c t => simp [skipWs, h c rfl]

theorem skipWs_cons {c : Char} (h : isSpace c = true) (t : Text) : skipWs (c :: t) = skipWs t := by
  simp [skipWs, h]

theorem digit_ne_sign {c : Char} (h : isDigit c = true) : c ≠ '-' ∧ c ≠ '+' ∧ c ≠ '.' ∧ c ≠ 'e' ∧ c ≠ 'E' ∧ c ≠ '\n' := by
  refine ⟨?_, ?_, ?_, ?_, ?_, ?_⟩ <;> rintro rfl <;> revert h <;> decide

theorem takeSign_of_digit {c : Char} {t : Text} (h : isDigit c = true) : takeSign (c :: t) = (false, c :: t) := by
  have := digit_ne_sign h
  unfold takeSign
  split <;> simp_all

theorem scanNat_natText {n : Nat} (hn : n < szMod) {rest : Text} (hr : Stop rest) :
    scanNat (natText n ++ rest) = .got n rest := by
  have hne := natText_ne_nil n
  have hd := natText_digits n
  have hv := natVal_natText n
  match ht : natText n with
  | [] => exact absurd ht hne
  | c :: t =>
    rw [ht] at hd hv
    have hc := hd c (by simp)
    have hs : skipWs (c :: t ++ rest) = c :: t ++ rest :=
      skipWs_of_head fun d h => by simp at h; rw [← h]; exact not_space_of_digit hc
    have htw := takeWhile_digits hd (stop_not_digit hr)
    unfold scanNat
    simp only [hs]
    rw [if_neg (by simp)]
    simp only [List.cons_append] at htw ⊢
    simp only [takeSign_of_digit hc, htw]
    simp [hv, hn]

theorem scanNat_space {c : Char} (h : isSpace c = true) (t : Text) : scanNat (c :: t) = scanNat t := by
  unfold scanNat; rw [skipWs_cons h]

theorem scanNats_nil : scanNats [] = [] := by
  rw [scanNats]
  have : scanNat [] = .fail none := by simp [scanNat, skipWs]
  split <;> simp_all

theorem scanNats_got {t rest : Text} {v : Nat} (h : scanNat t = .got v rest) : scanNats t = v :: scanNats rest := by
  rw [scanNats]
  split <;> simp_all

theorem scanNats_fail {t : Text} {o : Option Nat} (h : scanNat t = .fail o) : scanNats t = [] := by
  rw [scanNats]
  split <;> simp_all

theorem scanNats_space {c : Char} (h : isSpace c = true) (t : Text) : scanNats (c :: t) = scanNats t := by
  cases hs : scanNat t with
  | got v r => rw [scanNats_got hs, scanNats_got (by rw [scanNat_space h]; exact hs)]
  | fail o => rw [scanNats_fail hs, scanNats_fail (by rw [scanNat_space h]; exact hs)]

theorem scanNats_natText {n : Nat} (hn : n < szMod) {rest : Text} (hr : Stop rest) :
    scanNats (natText n ++ rest) = n :: scanNats rest := scanNats_got (scanNat_natText hn hr)

end City
