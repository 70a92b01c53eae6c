import Verif.Spec.Grammar
import Verif.Lemmas.Print
/-! Reading words. -/
namespace City
open Spec

theorem white_space {c : Char} (h : White c) : isSpace c = true := by
  rcases h with rfl | rfl | rfl | rfl | rfl <;> decide

theorem digit_of {c : Char} (h : c ∈ ['0', '1', '2', '3', '4', '5', '6', '7', '8', '9']) : isDigit c = true := by
  simp only [List.mem_cons, List.not_mem_nil, or_false] at h
  rcases h with rfl | rfl | rfl | rfl | rfl | rfl | rfl | rfl | rfl | rfl <;> decide

theorem digits_all {t : Text} (h : Digits t) : ∀ c ∈ t, isDigit c = true := fun c hc => digit_of (h c hc)

theorem natVal_eq (t : Text) : natVal t = digitsValue t := by
  unfold digitsValue
  induction t with
  | nil => rfl
  | cons c t ih =>
    rw [natVal_cons, ih, List.reverse_cons, List.map_append, Nat.ofDigits_append]
    simp [digitVal]
    ring

theorem skipWs_white {b : Text} (h : ∀ c ∈ b, White c) (t : Text) : skipWs (b ++ t) = skipWs t := by
  induction b with
  | nil => rfl
  | cons c b ih => rw [List.cons_append, skipWs_cons (white_space (h c (by simp))), ih fun d hd => h d (by simp [hd])]

theorem skipWs_all {b : Text} (h : ∀ c ∈ b, White c) : skipWs b = [] := by
  have := skipWs_white h []
  rwa [List.append_nil] at this

theorem stop_of_white {r : Text} (h : ∀ c, r.head? = some c → White c) : Stop r := fun c hc => white_space (h c hc)

/-- Lines are what `readlines` gives. -/
theorem readlines_of_lines {t : Text} {ls : List Text} (h : Lines t ls) : readlines t = ls := by
  induction h with
  | nil => rfl
  | @last l h hne =>
    have : ∀ l : Text, '\n' ∉ l → l ≠ [] → readlines l = [l] := by
      intro l
      induction l with
      | nil => intro _ h; exact absurd rfl h
      | cons c l ih =>
        intro h _
        rw [List.mem_cons, not_or] at h
        rw [readlines, if_neg (fun e => h.1 e.symm)]
        cases l with
        | nil => rfl
        | cons d l => rw [ih h.2 (by simp)]
    exact this l h hne
  | cons h _ ih => rw [readlines_line h, ih]

theorem scanNat_word {b w r : Text} {n : ℕ} (hb : ∀ c ∈ b, White c) (hw : IsNat w n) (hn : n < 2 ^ 64) (hr : Stop r) :
    scanNat (b ++ (w ++ r)) = .got n r := by
  obtain ⟨hd, hne, rfl⟩ := hw
  have hd := digits_all hd
  unfold scanNat
  rw [skipWs_white hb]
  obtain ⟨c, w', rfl⟩ : ∃ c w', w = c :: w' := by cases w with
    | nil => exact absurd rfl hne
    | cons c w' => exact ⟨c, w', rfl⟩
  rw [skipWs_of_head (by intro d hd'; simp at hd'; subst hd'; exact not_space_of_digit (hd c (by simp)))]
  rw [if_neg (by simp)]
  rw [show takeSign (c :: w' ++ r) = (false, c :: w' ++ r) from takeSign_of_digit (hd c (by simp))]
  obtain ⟨h1, h2⟩ := takeWhile_digits hd (stop_not_digit hr)
  simp only
  rw [h1, h2, if_neg (by simp), natVal_eq, if_neg (by rw [show szMod = 2 ^ 64 from rfl]; omega)]
  rfl

theorem scanNats_white {b : Text} (hb : ∀ c ∈ b, White c) : scanNats b = [] := by
  apply scanNats_fail (o := none)
  unfold scanNat
  rw [skipWs_all hb, if_pos rfl]

theorem scanNats_line {l : Text} {ns : List ℕ} (h : NatLine l ns) (hn : ∀ n ∈ ns, n < 2 ^ 64) : scanNats l = ns := by
  obtain ⟨ws, hw, hf⟩ := h
  induction hw generalizing ns with
  | nil hb => cases hf; exact scanNats_white hb
  | cons hb _ _ hs _ ih =>
    obtain ⟨n, ns', hn1, hf', rfl⟩ := List.forall₂_cons_left_iff.1 hf
    rw [scanNats_got (scanNat_word hb hn1 (hn n (by simp)) (stop_of_white hs)), ih (fun m hm => hn m (by simp [hm])) hf']

theorem takeSign_sign {s t : Text} {v : ℤ} (hs : Sign s v) (ht : ∀ c, t.head? = some c → c ≠ '-' ∧ c ≠ '+') :
    takeSign (s ++ t) = (decide (v < 0), t) := by
  cases hs with
  | none =>
    rw [List.nil_append]
    unfold takeSign
    split
    · exact absurd rfl (ht '-' rfl).1
    · exact absurd rfl (ht '+' rfl).2
    · rfl
  | plus => rfl
  | minus => rfl

theorem takeFrac_frac {f b t : Text} (hf : Frac f b) (ht : ∀ c, t.head? = some c → isDigit c = false ∧ c ≠ '.') :
    takeFrac (f ++ t) = (b, t) := by
  cases hf with
  | none =>
    rw [List.nil_append]
    unfold takeFrac
    split
    · exact absurd rfl (ht '.' rfl).2
    · rfl
  | point h =>
    obtain ⟨h1, h2⟩ := takeWhile_digits (digits_all h) (fun c hc => (ht c hc).1)
    rw [List.cons_append, takeFrac, h1, h2]

theorem stop_ne {r : Text} (hr : Stop r) {c : Char} (hc : r.head? = some c) :
    c ≠ '-' ∧ c ≠ '+' ∧ c ≠ '.' ∧ c ≠ 'e' ∧ c ≠ 'E' := by
  have := hr c hc
  refine ⟨?_, ?_, ?_, ?_, ?_⟩ <;> rintro rfl <;> revert this <;> decide

theorem takeExp_expo {x r : Text} {e : ℤ} (hx : Expo x e) (hr : Stop r) : takeExp (x ++ r) = some (e, r) := by
  cases hx with
  | none =>
    rw [List.nil_append]
    cases r with
    | nil => rfl
    | cons c r =>
      have := stop_ne hr (c := c) rfl
      rw [takeExp, if_neg (by tauto)]
  | @some c s d v hc hs hd hne =>
    obtain ⟨h1, h2⟩ := takeWhile_digits (digits_all hd) (stop_not_digit hr)
    rw [List.cons_append, takeExp, if_pos hc, List.append_assoc, takeSign_sign hs]
    · simp only
      rw [h1, h2, if_neg hne, natVal_eq]
      cases hs <;> simp
    · intro c' hc'
      cases d with
      | nil => exact absurd rfl hne
      | cons d0 d =>
        simp at hc'
        subst hc'
        have := digit_ne_sign (digits_all hd d0 (by simp))
        exact ⟨this.1, this.2.1⟩

theorem expo_head {x r : Text} {e : ℤ} (hx : Expo x e) (hr : Stop r) :
    ∀ c, (x ++ r).head? = some c → isDigit c = false ∧ c ≠ '.' := by
  intro c hc
  cases hx with
  | none => exact ⟨stop_not_digit hr c hc, (stop_ne hr hc).2.2.1⟩
  | some h =>
    simp at hc
    subst hc
    rcases h with rfl | rfl <;> decide

theorem scanDec_word {b w r : Text} {q : ℚ} (hb : ∀ c ∈ b, White c) (hw : IsDec w q) (hq : |q| < dblOverflow) (hr : Stop r) :
    scanDec (b ++ (w ++ r)) = some (q, r) := by
  cases hw with
  | @mk s a f bd x v e hs ha hf hx hne =>
    unfold scanDec
    rw [skipWs_white hb]
    have hfh : ∀ c, (f ++ (x ++ r)).head? = some c → isDigit c = false := by
      intro c hc
      cases hf with
      | none => exact (expo_head hx hr c hc).1
      | point h => simp at hc; subst hc; decide
    have hah : ∀ c, (a ++ (f ++ (x ++ r))).head? = some c → (c ≠ '-' ∧ c ≠ '+') ∧ isSpace c = false := by
      intro c hc
      cases a with
      | nil =>
        cases hf with
        | none => simp at hne
        | point h => simp at hc; subst hc; decide
      | cons a0 a =>
        simp at hc
        subst hc
        have := digits_all ha a0 (by simp)
        exact ⟨⟨(digit_ne_sign this).1, (digit_ne_sign this).2.1⟩, not_space_of_digit this⟩
    have hw : s ++ (a ++ (f ++ x)) ++ r = s ++ (a ++ (f ++ (x ++ r))) := by simp
    rw [hw, skipWs_of_head, takeSign_sign hs fun c hc => (hah c hc).1]
    · obtain ⟨h1, h2⟩ := takeWhile_digits (digits_all ha) hfh
      simp only
      rw [h1, h2, takeFrac_frac hf (expo_head hx hr)]
      simp only
      rw [if_neg (by tauto), takeExp_expo hx hr]
      simp only
      have hval : (natVal (a ++ bd) : ℚ) * (10 : ℚ) ^ (e - bd.length) =
          ((digitsValue a : ℚ) + digitsValue bd / 10 ^ bd.length) * (10 : ℚ) ^ e := by
        rw [natVal_append, natVal_eq, natVal_eq, zpow_sub₀ (by norm_num), zpow_natCast]
        push_cast
        have : (10 : ℚ) ^ bd.length ≠ 0 := by positivity
        field_simp
      rw [hval]
      have hpos : 0 ≤ ((digitsValue a : ℚ) + digitsValue bd / 10 ^ bd.length) * (10 : ℚ) ^ e :=
        mul_nonneg (add_nonneg (Nat.cast_nonneg _) (div_nonneg (Nat.cast_nonneg _) (pow_nonneg (by norm_num) _))) (zpow_nonneg (by norm_num) _)
      generalize ((digitsValue a : ℚ) + digitsValue bd / 10 ^ bd.length) = m at *
      have hv : |(v : ℚ)| = 1 := by cases hs <;> simp
      have : m * (10 : ℚ) ^ e < dblOverflow := by
        rw [mul_assoc, abs_mul, hv, one_mul, abs_of_nonneg hpos] at hq
        exact hq
      rw [if_neg (by rw [not_le]; exact this)]
      cases hs <;> simp
    · intro c hc
      cases hs with
      | none => exact (hah c hc).2
      | plus => simp at hc; subst hc; decide
      | minus => simp at hc; subst hc; decide

theorem scanDecs_line {rnd : ℚ → ℚ} {l : Text} {qs : List ℚ} (h : DecLine l qs) (hn : ∀ q ∈ qs, |q| < dblOverflow) :
    scanDecs rnd l = qs.map rnd := by
  obtain ⟨ws, hw, hf⟩ := h
  induction hw generalizing qs with
  | @nil b hb =>
    cases hf
    apply scanDecs_fail
    unfold scanDec
    rw [skipWs_all hb]
    rfl
  | cons hb _ _ hs _ ih =>
    obtain ⟨q, qs', hq, hf', rfl⟩ := List.forall₂_cons_left_iff.1 hf
    rw [scanDecs_got rnd (scanDec_word hb hq (hn q (by simp)) (stop_of_white hs)), ih (fun m hm => hn m (by simp [hm])) hf']
    rfl

end City
