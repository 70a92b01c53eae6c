import Verif.Lemmas.Cut
import Verif.Props.ObjExact
/-! Lemmas about OBJ texts that were cut short. -/
set_option exponentiation.threshold 2000
namespace City

/-! ### Decimals cut short -/

theorem prefix_digits_rest {q ds r : Text} (hd : ∀ c ∈ ds, isDigit c = true) (hr : ∀ c, r.head? = some c → isDigit c = false) (h : q <+: ds ++ r) :
    (q <+: ds ∧ q.takeWhile isDigit = q ∧ q.dropWhile isDigit = []) ∨ ∃ q', q' <+: r ∧ q.takeWhile isDigit = ds ∧ q.dropWhile isDigit = q' := by
  rcases List.prefix_or_prefix_of_prefix h (List.prefix_append ds r) with h' | h'
  · left
    have : ∀ c ∈ q, isDigit c = true := fun c hc => hd c (h'.subset hc)
    exact ⟨h', List.takeWhile_eq_self_iff.2 this, List.dropWhile_eq_nil_iff.2 this⟩
  · obtain ⟨q', rfl⟩ := h'
    rw [List.prefix_append_right_inj] at h
    right
    have hh : ∀ c, q'.head? = some c → isDigit c = false := by
      intro c hc
      obtain ⟨r', rfl⟩ := h
      apply hr
      cases q' with
      | nil => simp at hc
      | cons d q' => simpa using hc
    have := takeWhile_digits hd hh
    exact ⟨q', h, this.1, this.2⟩

/-- A beginning of an exponent is refused or used up. -/
theorem takeExp_prefix {o : Option Int} {q : Text} (h : q <+: optExp o) : takeExp q = none ∨ ∃ e, takeExp q = some (e, []) := by
  cases o with
  | none =>
    simp [optExp] at h
    subst h
    exact .inr ⟨0, rfl⟩
  | some e =>
    obtain ⟨h1, h2, h3⟩ := expDigits e
    unfold optExp expText at h
    set ds := (if e.natAbs < 10 then '0' :: natText e.natAbs else natText e.natAbs)
    match q, h with
    | [], _ => exact .inr ⟨0, rfl⟩
    | [c], h =>
      simp [List.cons_prefix_cons] at h
      subst h
      exact .inl rfl
    | c :: s :: r, h =>
      rw [List.cons_prefix_cons, List.cons_prefix_cons] at h
      obtain ⟨rfl, hs, h⟩ := h
      have hsg : ∃ b, takeSign (s :: r) = (b, r) := by
        rw [hs]
        split <;> simp [takeSign]
      obtain ⟨b, hb⟩ := hsg
      have hr : ∀ c ∈ r, isDigit c = true := fun c hc => h2 c (h.subset hc)
      rw [takeExp, if_pos (Or.inl rfl)]
      simp only [hb, List.takeWhile_eq_self_iff.2 hr, List.dropWhile_eq_nil_iff.2 hr]
      by_cases h0 : r = []
      · left; rw [if_pos h0]
      · right; rw [if_neg h0]; exact ⟨_, rfl⟩

/-- A beginning of an unsigned number gives nothing or uses all characters. -/
theorem scanDec_unsigned_prefix {ds fs q : Text} {o : Option Int} (hd : ∀ c ∈ ds, isDigit c = true) (hf : ∀ c ∈ fs, isDigit c = true)
    (h : q <+: ds ++ (fracText fs ++ optExp o)) :
    let t := q
    let a := t.takeWhile isDigit
    let r := takeFrac (t.dropWhile isDigit)
    (takeExp r.2 = none ∨ ∃ e, takeExp r.2 = some (e, [])) ∧ (q = [] → a = [] ∧ r.1 = []) := by
  simp only
  refine ⟨?_, fun e => by subst e; simp [takeFrac]⟩
  have hoh : ∀ c, (optExp o).head? = some c → isDigit c = false ∧ c ≠ '.' := by
    intro c hc
    have := optExp_head o stop_nil c
    rw [List.append_nil] at this
    exact this hc
  rcases prefix_digits_rest hd (fracText_head fun c hc => (hoh c hc).1) h with ⟨-, -, e⟩ | ⟨q', h', -, e⟩
  · rw [e]; exact .inr ⟨0, rfl⟩
  · rw [e]
    unfold fracText at h'
    split at h'
    · rw [List.nil_append] at h'
      have : takeFrac q' = ([], q') := by
        match q', h' with
        | [], _ => rfl
        | c :: r, h' =>
          have hc : c ≠ '.' := by
            obtain ⟨r', hr'⟩ := h'
            exact (hoh c (by rw [← hr']; rfl)).2
          unfold takeFrac
          split
          · rename_i heq; cases heq; exact absurd rfl hc
          · rfl
      rw [this]
      exact takeExp_prefix h'
    · match q', h' with
      | [], _ => exact .inr ⟨0, rfl⟩
      | c :: r, h' =>
        rw [List.cons_append, List.cons_prefix_cons] at h'
        obtain ⟨rfl, h'⟩ := h'
        rw [show takeFrac ('.' :: r) = (r.takeWhile isDigit, r.dropWhile isDigit) from rfl]
        rcases prefix_digits_rest hf (fun c hc => (hoh c hc).1) h' with ⟨-, -, e⟩ | ⟨q', h', -, e⟩
        · rw [e]; exact .inr ⟨0, rfl⟩
        · rw [e]; exact takeExp_prefix h'

theorem dblText_parts (x : ℚ) : ∃ (neg : Bool) (ds fs : Text) (o : Option Int), dblText x = (if neg then ['-'] else []) ++ (ds ++ (fracText fs ++ optExp o)) ∧ ds ≠ [] ∧
    (∀ c ∈ ds, isDigit c = true) ∧ ∀ c ∈ fs, isDigit c = true := by
  have key : ∀ q : ℚ, 0 < q → ∃ (ds fs : Text) (o : Option Int), gText (sixDigits q).1 (sixDigits q).2 = ds ++ (fracText fs ++ optExp o) ∧ ds ≠ [] ∧
      (∀ c ∈ ds, isDigit c = true) ∧ ∀ c ∈ fs, isDigit c = true := by
    intro q h0
    obtain ⟨b1, b2⟩ := sixDigits_bounds h0
    obtain ⟨ds, fs, o, e1, e2, e3, e4, -⟩ := gText_parts b1 b2 (sixDigits q).2
    exact ⟨ds, fs, o, e1, e2, e3, e4⟩
  unfold dblText
  split
  · exact ⟨false, ['0'], [], none, rfl, by simp, by intro c hc; simp at hc; subst hc; decide, by simp⟩
  · rename_i h0
    split
    · rename_i hneg
      obtain ⟨ds, fs, o, e, h⟩ := key (-x) (by linarith)
      exact ⟨true, ds, fs, o, by simp [e], h⟩
    · rename_i hneg
      obtain ⟨ds, fs, o, e, h⟩ := key x (lt_of_le_of_ne (not_lt.1 hneg) (Ne.symm h0))
      exact ⟨false, ds, fs, o, by simp [e], h⟩

/-- From the beginning of a printed number at most one number is read. -/
theorem scanDecs_dbl_prefix (rnd : ℚ → ℚ) {x : ℚ} {q : Text} (h : q <+: dblText x) : (scanDecs rnd q).length ≤ 1 := by
  obtain ⟨neg, ds, fs, o, e, h0, hd, hf⟩ := dblText_parts x
  rw [e] at h
  suffices hs : scanDec q = none ∨ ∃ v, scanDec q = some (v, []) by
    rcases hs with hs | ⟨v, hs⟩
    · rw [scanDecs_fail rnd hs]; simp
    · rw [scanDecs_got rnd hs, scanDecs_nil]; simp
  have main : ∀ (b : Bool) (q' : Text), q' <+: ds ++ (fracText fs ++ optExp o) → takeSign (skipWs q) = (b, q') →
      scanDec q = none ∨ ∃ v, scanDec q = some (v, []) := by
    intro b q' hq' hs
    have := (scanDec_unsigned_prefix hd hf hq').1
    unfold scanDec
    simp only [hs]
    generalize takeFrac (List.dropWhile isDigit q') = r at this
    obtain ⟨r1, r2⟩ := r
    simp only at this ⊢
    split
    · exact .inl rfl
    · rcases this with h | ⟨e, h⟩
      · rw [h]; exact .inl rfl
      · rw [h]
        simp only
        split
        · exact .inl rfl
        · exact .inr ⟨_, rfl⟩
  have hsk : skipWs q = q := by
    apply skipWs_of_head
    intro c hc
    obtain ⟨q2, hq2⟩ := h
    have : ((if neg then ['-'] else []) ++ (ds ++ (fracText fs ++ optExp o))).head? = some c := by
      rw [← hq2]
      cases q with
      | nil => simp at hc
      | cons d q => simpa using hc
    cases neg with
    | true => simp at this; subst this; decide
    | false =>
      match ds, h0 with
      | d :: ds, _ =>
        simp at this
        subst this
        exact not_space_of_digit (hd _ (by simp))
  cases neg with
  | true =>
    match q, h with
    | [], _ => exact .inl scanDec_nil
    | c :: q', h =>
      simp only [if_true, List.singleton_append, List.cons_prefix_cons] at h
      obtain ⟨rfl, h⟩ := h
      exact main true q' h (by rw [hsk]; rfl)
  | false =>
    simp only [Bool.false_eq_true, if_false, List.nil_append] at h
    match q, h with
    | [], _ => exact .inl scanDec_nil
    | c :: q', h =>
      have hc : isDigit c = true := by
        match ds, h0 with
        | d :: ds, _ =>
          rw [List.cons_append, List.cons_prefix_cons] at h
          rw [h.1]; exact hd _ (by simp)
      exact main false (c :: q') h (by rw [hsk, takeSign_of_digit hc])

/-- A beginning of a word followed by a separator and more. -/
theorem prefix_sep {q a b : Text} {c : Char} (h : q <+: a ++ c :: b) : q <+: a ∨ ∃ q', q = a ++ c :: q' ∧ q' <+: b := by
  rcases List.prefix_or_prefix_of_prefix h (List.prefix_append a _) with h' | h'
  · exact .inl h'
  · obtain ⟨r, rfl⟩ := h'
    rw [List.prefix_append_right_inj] at h
    cases r with
    | nil => exact .inl (by simp)
    | cons d r =>
      rw [List.cons_prefix_cons] at h
      obtain ⟨rfl, h⟩ := h
      exact .inr ⟨r, rfl, h⟩

/-- From the beginning of the text of a point at most three numbers are read. -/
theorem scanDecs_point_prefix (rnd : ℚ → ℚ) {p : V3 ℚ} (hp : Off.Finite3 p) {q : Text} (h : q <+: Off.pointText p) : (scanDecs rnd q).length ≤ 3 := by
  rw [show Off.pointText p = dblText p.x ++ ' ' :: (dblText p.y ++ ' ' :: dblText p.z) from rfl] at h
  rcases prefix_sep h with h | ⟨q1, rfl, h1⟩
  · have := scanDecs_dbl_prefix rnd h; omega
  rw [scanDecs_dblText rnd hp.1 (stop_space (by decide)), scanDecs_space rnd (by decide)]
  rcases prefix_sep h1 with h | ⟨q2, rfl, h2⟩
  · have := scanDecs_dbl_prefix rnd h; simp; omega
  rw [scanDecs_dblText rnd hp.2.1 (stop_space (by decide)), scanDecs_space rnd (by decide)]
  have := scanDecs_dbl_prefix rnd h2
  simp; omega

namespace Obj

/-- The numbers read from the beginning of a line of indexes: as many or fewer, each between 1 and the one that was written; only the last may differ. -/
theorem scan_fLine_prefix {rnd : ℚ → ℚ} (hr : ∀ n : ℕ, n ≤ 2 ^ 53 → rnd n = n) {s : Nat} {is : List Nat} (h : ∀ i ∈ is, i + s + 1 ≤ 2 ^ 53) {q : Text}
    (hq : q <+: is.flatMap fun i => natText (i + s + 1) ++ [' ']) :
    ∃ js : List Nat, scanDecs rnd q = js.map (fun (j : Nat) => (j : ℚ)) ∧ List.Forall₂ (fun j i => 1 ≤ j ∧ j ≤ i + s + 1) js (is.take js.length) ∧
      js.dropLast <+: is.map fun i => i + s + 1 := by
  induction is generalizing q with
  | nil =>
    simp at hq
    subst hq
    exact ⟨[], by simp [scanDecs_nil], .nil, by simp⟩
  | cons i is ih =>
    have hi := h i (by simp)
    rw [List.flatMap_cons, List.append_assoc, List.singleton_append] at hq
    rcases prefix_sep hq with hq | ⟨q1, rfl, hq1⟩
    · by_cases h0 : q = []
      · subst h0; exact ⟨[], by simp [scanDecs_nil], .nil, by simp⟩
      · have hv : natVal q ≤ i + s + 1 := by simpa [natVal_natText] using natVal_prefix hq
        have hpos := natVal_prefix_pos hq h0 (by omega)
        refine ⟨[natVal q], ?_, by simp; omega, by simp⟩
        have hb : (natVal q : ℚ) ≤ 2 ^ 53 := by exact_mod_cast hv.trans hi
        have := scanDec_parts false (ds := q) (fs := []) none (rest := []) h0 (fun c hc => natText_digits _ c (hq.subset hc)) (by simp) stop_nil (by
          rw [List.append_nil]
          simp only [optVal, List.length_nil, Nat.cast_zero, sub_zero, zpow_zero, mul_one]
          refine lt_of_le_of_lt hb ?_
          unfold dblOverflow; norm_num)
        have e : scanDec q = some ((natVal q : ℚ), []) := by
          simpa [optExp, fracText, optVal] using this
        rw [scanDecs_got rnd e, scanDecs_nil, hr _ (hv.trans hi)]
        rfl
    · obtain ⟨js, h1, h2, h3⟩ := ih (fun j hj => h j (by simp [hj])) hq1
      refine ⟨(i + s + 1) :: js, ?_, ?_, ?_⟩
      · rw [scanDecs_natText rnd hi (stop_space (by decide)), scanDecs_space rnd (by decide), h1, hr _ hi]
        rfl
      · simp only [List.length_cons, List.take_succ_cons]
        exact .cons ⟨by omega, le_refl _⟩ h2
      · cases js with
        | nil => simp
        | cons j js =>
          rw [List.dropLast_cons_of_ne_nil (by simp), List.map_cons, List.cons_prefix_cons]
          exact ⟨rfl, h3⟩

end Obj

/-- Where a list of blocks is cut. -/
theorem take_flatMap {α β : Type} (f : α → List β) (L : List α) (j : Nat) (hj : j < (L.flatMap f).length) :
    ∃ done x rest k, L = done ++ x :: rest ∧ k < (f x).length ∧ (L.flatMap f).take j = done.flatMap f ++ (f x).take k ∧ (L.flatMap f)[j]? = (f x)[k]? := by
  induction L generalizing j with
  | nil => simp at hj
  | cons x L ih =>
    rw [List.flatMap_cons] at hj ⊢
    by_cases h : j < (f x).length
    · exact ⟨[], x, L, j, rfl, h, by rw [List.take_append_of_le_length h.le]; rfl, by rw [List.getElem?_append_left h]⟩
    · obtain ⟨done, y, rest, k, rfl, h1, h2, h3⟩ := ih (j - (f x).length) (by rw [List.length_append] at hj; omega)
      refine ⟨x :: done, y, rest, k, rfl, h1, ?_, ?_⟩
      · rw [List.take_append, List.take_of_length_le (by omega), h2]
        simp
      · rw [List.getElem?_append_right (by omega), h3]

end City
