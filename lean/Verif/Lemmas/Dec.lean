import Verif.Lemmas.Text
import Mathlib.Tactic.NormNum
import Mathlib.Tactic.Positivity
/-! Reading back a printed double. -/
namespace City

theorem takeFrac_fracText {fs tail : Text} (hf : ∀ c ∈ fs, isDigit c = true)
    (ht : ∀ c, tail.head? = some c → isDigit c = false ∧ c ≠ '.') :
    takeFrac (fracText fs ++ tail) = (fs, tail) := by
  unfold fracText
  split
  · subst fs
    cases tail with
    | nil => rfl
    | cons c t =>
      have := (ht c rfl).2
      unfold takeFrac
      split
      · simp_all
      · rfl
  · have := takeWhile_digits hf fun c hc => (ht c hc).1
    simp only [List.cons_append, takeFrac, this]

theorem takeExp_stop {rest : Text} (h : Stop rest) : takeExp rest = some (0, rest) := by
  cases rest with
  | nil => rfl
  | cons c t =>
    have hc := h c rfl
    have : ¬ (c = 'e' ∨ c = 'E') := by rintro (rfl | rfl) <;> revert hc <;> decide
    rw [takeExp, if_neg this]

/-- The digits of a printed exponent. -/
theorem expDigits (e : Int) : let ds := (if e.natAbs < 10 then '0' :: natText e.natAbs else natText e.natAbs)
    ds ≠ [] ∧ (∀ c ∈ ds, isDigit c = true) ∧ natVal ds = e.natAbs := by
  dsimp only
  split
  · refine ⟨by simp, ?_, ?_⟩
    · intro c hc
      rcases List.mem_cons.1 hc with rfl | hc
      · decide
      · exact natText_digits _ c hc
    · rw [natVal_cons, natVal_natText]; simp [digitVal]
  · exact ⟨natText_ne_nil _, natText_digits _, natVal_natText _⟩

theorem takeExp_expText (e : Int) {rest : Text} (h : Stop rest) : takeExp (expText e ++ rest) = some (e, rest) := by
  obtain ⟨h1, h2, h3⟩ := expDigits e
  unfold expText
  set ds := (if e.natAbs < 10 then '0' :: natText e.natAbs else natText e.natAbs)
  have htw := takeWhile_digits h2 (stop_not_digit h)
  have hs : takeSign ((if e < 0 then '-' else '+') :: (ds ++ rest)) = (decide (e < 0), ds ++ rest) := by
    by_cases he : e < 0 <;> simp [he, takeSign]
  rw [List.cons_append, List.cons_append, takeExp, if_pos (Or.inl rfl)]
  simp only [hs, htw]
  rw [if_neg h1, h3]
  by_cases he : e < 0
  · simp only [he, decide_true, if_true]
    congr 2
    omega
  · simp only [he, decide_false, Bool.false_eq_true, if_false]
    congr 2
    omega

/-- Optional exponent of a printed number. -/
def optExp : Option Int → Text
  | none => []
  | some e => expText e

/-- Value of the optional exponent. -/
def optVal : Option Int → Int
  | none => 0
  | some e => e

theorem optExp_head (o : Option Int) {rest : Text} (h : Stop rest) :
    ∀ c, (optExp o ++ rest).head? = some c → isDigit c = false ∧ c ≠ '.' := by
  intro c hc
  cases o with
  | none =>
    have hs := h c (by simpa [optExp] using hc)
    refine ⟨not_digit_of_space hs, ?_⟩
    rintro rfl; revert hs; decide
  | some e =>
    simp [optExp, expText] at hc
    subst hc; decide

theorem takeExp_opt (o : Option Int) {rest : Text} (h : Stop rest) :
    takeExp (optExp o ++ rest) = some (optVal o, rest) := by
  cases o with
  | none => simpa [optExp, optVal] using takeExp_stop h
  | some e => exact takeExp_expText e h

theorem fracText_head {fs tail : Text} (ht : ∀ c, tail.head? = some c → isDigit c = false) :
    ∀ c, (fracText fs ++ tail).head? = some c → isDigit c = false := by
  intro c hc
  unfold fracText at hc
  split at hc
  · exact ht c (by simpa using hc)
  · simp at hc; subst hc; decide

/-- Reading a printed unsigned number with an explicit sign. -/
theorem scanDec_parts (neg : Bool) {ds fs : Text} (o : Option Int) {rest : Text} (hds : ds ≠ [])
    (hd : ∀ c ∈ ds, isDigit c = true) (hf : ∀ c ∈ fs, isDigit c = true) (h : Stop rest)
    (hov : (natVal (ds ++ fs) : ℚ) * (10 : ℚ) ^ (optVal o - fs.length) < dblOverflow) :
    scanDec ((if neg then ['-'] else []) ++ (ds ++ (fracText fs ++ (optExp o ++ rest)))) =
      some (if neg then -((natVal (ds ++ fs) : ℚ) * (10 : ℚ) ^ (optVal o - fs.length))
        else (natVal (ds ++ fs) : ℚ) * (10 : ℚ) ^ (optVal o - fs.length), rest) := by
  have htw := takeWhile_digits hd (fracText_head (fs := fs) fun c hc => (optExp_head o h c hc).1)
  have hfr := takeFrac_fracText hf (optExp_head o h)
  have hsk : takeSign (skipWs ((if neg then ['-'] else []) ++ (ds ++ (fracText fs ++ (optExp o ++ rest))))) =
      (neg, ds ++ (fracText fs ++ (optExp o ++ rest))) := by
    cases neg with
    | true =>
      rw [skipWs_of_head (by intro c hc; simp at hc; subst hc; decide)]
      rfl
    | false =>
      match ds, hds with
      | c :: t, _ =>
        have hc := hd c (by simp)
        rw [skipWs_of_head (by intro c hc'; simp at hc'; subst hc'; exact not_space_of_digit hc)]
        simp [takeSign_of_digit hc]
  unfold scanDec
  simp only [hsk, htw, hfr]
  rw [if_neg (by simp [hds]), takeExp_opt o h]
  simp only
  rw [if_neg (not_le.2 hov)]

theorem rstrip0_spec (t : Text) : ∃ k, t = rstrip0 t ++ List.replicate k '0' := by
  refine ⟨(t.reverse.takeWhile (· == '0')).length, ?_⟩
  have h : t.reverse.takeWhile (· == '0') = List.replicate (t.reverse.takeWhile (· == '0')).length '0' := by
    rw [List.eq_replicate_iff]
    refine ⟨rfl, fun c hc => ?_⟩
    have := List.mem_takeWhile_imp hc
    simpa using this
  have h2 := List.takeWhile_append_dropWhile (p := (· == '0')) (l := t.reverse)
  have h3 := congrArg List.reverse h2
  rw [List.reverse_append, List.reverse_reverse] at h3
  conv_lhs => rw [← h3]
  unfold rstrip0
  congr 1
  conv_lhs => rw [h]
  rw [List.reverse_replicate]

theorem rstrip0_digits {t : Text} (h : ∀ c ∈ t, isDigit c = true) : ∀ c ∈ rstrip0 t, isDigit c = true := by
  intro c hc
  obtain ⟨k, hk⟩ := rstrip0_spec t
  apply h
  rw [hk]; simp [hc]

/-- Value of a digit string whose trailing zeros were removed. -/
theorem strip_value {a t : Text} {k : Nat} (h : t = rstrip0 t ++ List.replicate k '0') :
    (natVal (a ++ t) : ℚ) = (natVal (a ++ rstrip0 t) : ℚ) * 10 ^ k ∧ t.length = (rstrip0 t).length + k := by
  constructor
  · have : a ++ t = (a ++ rstrip0 t) ++ List.replicate k '0' := by
      rw [List.append_assoc, ← h]
    rw [this, natVal_append, natVal_zeros]
    simp
  · conv_lhs => rw [h]
    simp

/-- The number a `%.6g` text stands for. -/
def decVal (m : Nat) (e : Int) : ℚ := (m : ℚ) * (10 : ℚ) ^ (e - 5)

theorem gText_parts {m : Nat} (h1 : 10 ^ 5 ≤ m) (h2 : m < 10 ^ 6) (e : Int) :
    ∃ ds fs o, gText m e = ds ++ (fracText fs ++ optExp o) ∧ ds ≠ [] ∧ (∀ c ∈ ds, isDigit c = true) ∧
      (∀ c ∈ fs, isDigit c = true) ∧ (natVal (ds ++ fs) : ℚ) * (10 : ℚ) ^ (optVal o - fs.length) = decVal m e := by
  have hlen : (natText m).length = 6 := natText_length (k := 5) h1 h2
  have hd := natText_digits m
  have hv := natVal_natText m
  have ten : (10 : ℚ) ≠ 0 := by norm_num
  have main : ∀ (a t : Text) (o : Option Int), natVal (a ++ t) = m → optVal o - t.length = e - 5 →
      (natVal (a ++ rstrip0 t) : ℚ) * (10 : ℚ) ^ (optVal o - ((rstrip0 t).length : Int)) = decVal m e := by
    intro a t o hm he
    obtain ⟨k, hk⟩ := rstrip0_spec t
    obtain ⟨e1, e2⟩ := strip_value (a := a) hk
    unfold decVal
    rw [← hm, e1, ← he, e2]
    have : optVal o - ((rstrip0 t).length : Int) = (k : Int) + (optVal o - (((rstrip0 t).length + k : ℕ) : Int)) := by
      push_cast; ring
    rw [this, zpow_add₀ ten, zpow_natCast]
    ring
  unfold gText
  simp only
  split
  · refine ⟨(natText m).take 1, rstrip0 ((natText m).drop 1), some e, ?_, ?_, ?_, ?_, ?_⟩
    · rw [List.append_assoc]; rfl
    · intro h
      have := congrArg List.length h
      simp [hlen] at this
    · exact fun c hc => hd c (List.mem_of_mem_take hc)
    · exact rstrip0_digits fun c hc => hd c (List.mem_of_mem_drop hc)
    · refine main _ _ _ ?_ ?_
      · rw [List.take_append_drop]; exact hv
      · simp [optVal, hlen]
  · rename_i hr
    split
    · rename_i he0
      refine ⟨(natText m).take (e.toNat + 1), rstrip0 ((natText m).drop (e.toNat + 1)), none, ?_, ?_, ?_, ?_, ?_⟩
      · simp [optExp]
      · intro h
        have := congrArg List.length h
        simp [hlen] at this
      · exact fun c hc => hd c (List.mem_of_mem_take hc)
      · exact rstrip0_digits fun c hc => hd c (List.mem_of_mem_drop hc)
      · refine main _ _ _ ?_ ?_
        · rw [List.take_append_drop]; exact hv
        · simp only [optVal, List.length_drop, hlen]; omega
    · refine ⟨['0'], rstrip0 (List.replicate ((-e).toNat - 1) '0' ++ natText m), none, ?_, by simp, ?_, ?_, ?_⟩
      · simp [optExp]
      · intro c hc; simp at hc; subst hc; decide
      · apply rstrip0_digits
        intro c hc
        rcases List.mem_append.1 hc with hc | hc
        · rw [List.eq_of_mem_replicate hc]; decide
        · exact hd c hc
      · refine main _ _ _ ?_ ?_
        · rw [natVal_append, natVal_append, natVal_zeros, hv]; simp [natVal, digitVal]
        · simp only [optVal, List.length_append, List.length_replicate, hlen]; omega

end City
