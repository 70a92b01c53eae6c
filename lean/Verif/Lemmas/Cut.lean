import Verif.Lemmas.Off
/-! Lemmas about texts that were cut short. -/
namespace City

theorem readlines_single {l : Text} (h : '\n' ∉ l) : readlines l = if l = [] then [] else [l] := by
  induction l with
  | nil => rfl
  | cons c l ih =>
    have hc : c ≠ '\n' := fun e => h (by simp [e])
    rw [readlines, if_neg hc, ih fun e => h (by simp [e])]
    by_cases hl : l = [] <;> simp [hl]

theorem readlines_unlines_append {ls : List Text} (h : ∀ l ∈ ls, '\n' ∉ l) (q : Text) :
    readlines (unlines ls ++ q) = ls ++ readlines q := by
  induction ls with
  | nil => rfl
  | cons l ls ih =>
    rw [unlines_cons, List.append_assoc, List.cons_append, readlines_line (h l (by simp)), ih fun l hl => h l (by simp [hl])]
    rfl

/-- A beginning of a text of lines: some whole lines, then a beginning of the next. -/
theorem prefix_unlines {ls : List Text} {p : Text} (hp : p <+: unlines ls) :
    ∃ j q, p = unlines (ls.take j) ++ q ∧ (q = [] ∨ ∃ l, ls[j]? = some l ∧ q <+: l) := by
  induction ls generalizing p with
  | nil => exact ⟨0, [], by simpa [unlines] using hp, .inl rfl⟩
  | cons l ls ih =>
    rw [unlines_cons] at hp
    rcases List.prefix_or_prefix_of_prefix hp (List.prefix_append l _) with h | h
    · exact ⟨0, p, by simp [unlines], .inr ⟨l, rfl, h⟩⟩
    · obtain ⟨r, rfl⟩ := h
      rw [List.prefix_append_right_inj] at hp
      cases r with
      | nil => exact ⟨0, l, by simp [unlines], .inr ⟨l, rfl, List.prefix_refl _⟩⟩
      | cons c r =>
        rw [List.cons_prefix_cons] at hp
        obtain ⟨rfl, hp⟩ := hp
        obtain ⟨j, q, rfl, hq⟩ := ih hp
        exact ⟨j + 1, q, by simp [unlines_cons], by simpa using hq⟩

theorem readlines_prefix {ls : List Text} (h : ∀ l ∈ ls, '\n' ∉ l) {p : Text} (hp : p <+: unlines ls) :
    ∃ j q, p = unlines (ls.take j) ++ q ∧ (q = [] ∨ ∃ l, ls[j]? = some l ∧ q <+: l) ∧
      readlines p = ls.take j ++ (if q = [] then [] else [q]) := by
  obtain ⟨j, q, rfl, hq⟩ := prefix_unlines hp
  refine ⟨j, q, rfl, hq, ?_⟩
  rw [readlines_unlines_append fun l hl => h l (List.mem_of_mem_take hl), readlines_single]
  rcases hq with rfl | ⟨l, hl, hq⟩
  · simp
  · exact fun hm => h l (List.mem_of_getElem? hl) (hq.subset hm)

/-! ### Numbers cut short -/

theorem scanNat_digits {ds : Text} (hd : ∀ c ∈ ds, isDigit c = true) (hne : ds ≠ []) (hn : natVal ds < szMod) {rest : Text} (hr : Stop rest) :
    scanNat (ds ++ rest) = .got (natVal ds) rest := by
  match ds, hne with
  | c :: t, _ =>
    have hc := hd c (by simp)
    have hs : skipWs (c :: t ++ rest) = c :: t ++ rest :=
      skipWs_of_head fun d h => by simp at h; rw [← h]; exact not_space_of_digit hc
    have htw := takeWhile_digits hd (stop_not_digit hr)
    unfold scanNat
    simp only [hs]
    rw [if_neg (by simp)]
    simp only [List.cons_append] at htw ⊢
    simp only [takeSign_of_digit hc, htw]
    simp [hn]

theorem natVal_prefix {q t : Text} (h : q <+: t) : natVal q ≤ natVal t := by
  obtain ⟨r, rfl⟩ := h
  rw [natVal_append]
  have : 1 ≤ 10 ^ r.length := Nat.one_le_pow _ _ (by norm_num)
  calc natVal q = natVal q * 1 := by ring
    _ ≤ natVal q * 10 ^ r.length := Nat.mul_le_mul_left _ this
    _ ≤ _ := Nat.le_add_right _ _

/-- The first digit of a number that is not zero is not zero. -/
theorem natVal_prefix_pos {q : Text} {n : Nat} (h : q <+: natText n) (hq : q ≠ []) (hn : 0 < n) : 0 < natVal q := by
  match q, hq with
  | c :: t, _ =>
    have h0 : n ≠ 0 := by omega
    have hh : (natText n).head? = some c := by
      obtain ⟨r, hr⟩ := h
      rw [← hr]; rfl
    unfold natText at hh
    rw [if_neg h0, List.head?_map, List.head?_reverse, List.getLast?_eq_some_getLast (Nat.digits_ne_nil_iff_ne_zero.2 h0)] at hh
    simp only [Option.map_some, Option.some.injEq] at hh
    have hd := Nat.getLast_digit_ne_zero 10 h0
    have hlt : (Nat.digits 10 n).getLast (Nat.digits_ne_nil_iff_ne_zero.2 h0) < 10 :=
      Nat.digits_lt_base (by norm_num) (List.getLast_mem _)
    rw [natVal_cons, ← hh, digitVal_digitChar hlt]
    have : 0 < 10 ^ t.length := by positivity
    have := Nat.mul_pos (Nat.pos_of_ne_zero hd) this
    omega

namespace Off

/-- The numbers read from the beginning of a line of numbers: as many or fewer, each not larger than the one that was written, and not zero if
it was not. -/
theorem scan_prefix {ns : List Nat} (h : ∀ n ∈ ns, n < szMod) {q : Text} (hq : q <+: sepText ns) :
    (scanNats q).length ≤ ns.length ∧
      ∀ (i v : Nat), (scanNats q)[i]? = some v → ∃ n, ns[i]? = some n ∧ v ≤ n ∧ (0 < n → 0 < v) := by
  induction ns generalizing q with
  | nil =>
    simp [sepText] at hq
    subst hq
    simp [scanNats_nil]
  | cons n ns ih =>
    by_cases hq0 : q = []
    · subst hq0; simp [scanNats_nil]
    -- a beginning of the first number
    have first : q <+: natText n → (scanNats q).length ≤ (n :: ns).length ∧
        ∀ (i v : Nat), (scanNats q)[i]? = some v → ∃ k, (n :: ns)[i]? = some k ∧ v ≤ k ∧ (0 < k → 0 < v) := by
      intro hp
      have hv : natVal q ≤ n := by simpa [natVal_natText] using natVal_prefix hp
      have hs : scanNats q = [natVal q] := by
        have := scanNats_got (scanNat_digits (ds := q) (rest := []) (fun c hc => natText_digits n c (hp.subset hc)) hq0
          (lt_of_le_of_lt hv (h n (by simp))) stop_nil)
        rwa [List.append_nil, scanNats_nil] at this
      rw [hs]
      refine ⟨by simp, ?_⟩
      intro i v hi
      cases i with
      | zero =>
        simp at hi; subst hi
        exact ⟨n, rfl, hv, fun hn => natVal_prefix_pos hp hq0 hn⟩
      | succ i => simp at hi
    cases ns with
    | nil => exact first (by simpa [sepText] using hq)
    | cons m ms =>
      rw [sepText] at hq
      rcases List.prefix_or_prefix_of_prefix hq (List.prefix_append _ _) with hp | hp
      · exact first hp
      · obtain ⟨r, rfl⟩ := hp
        rw [List.prefix_append_right_inj] at hq
        cases r with
        | nil => exact first (by simp)
        | cons c r =>
          rw [List.cons_prefix_cons] at hq
          obtain ⟨rfl, hq⟩ := hq
          obtain ⟨h1, h2⟩ := ih (fun k hk => h k (by simp only [List.mem_cons] at hk ⊢; tauto)) hq
          rw [scanNats_natText (h n (by simp)) (stop_space (by decide)), scanNats_space (by decide)]
          refine ⟨by simpa using h1, ?_⟩
          intro i v hi
          cases i with
          | zero => simp at hi; subst hi; exact ⟨n, rfl, le_refl _, id⟩
          | succ i => simpa using h2 i v (by simpa using hi)

theorem scan_prefix_ne_nil {n : Nat} {ns : List Nat} (hn : n < szMod) {q : Text} (hq : q <+: sepText (n :: ns)) (h0 : q ≠ []) : scanNats q ≠ [] := by
  have first : q <+: natText n → scanNats q ≠ [] := by
    intro hp
    have hv : natVal q ≤ n := by simpa [natVal_natText] using natVal_prefix hp
    have := scanNats_got (scanNat_digits (ds := q) (rest := []) (fun c hc => natText_digits n c (hp.subset hc)) h0
      (lt_of_le_of_lt hv hn) stop_nil)
    rw [List.append_nil] at this
    rw [this]; simp
  cases ns with
  | nil => exact first (by simpa [sepText] using hq)
  | cons m ms =>
    rw [sepText] at hq
    rcases List.prefix_or_prefix_of_prefix hq (List.prefix_append _ _) with hp | hp
    · exact first hp
    · obtain ⟨r, rfl⟩ := hp
      rw [List.prefix_append_right_inj] at hq
      cases r with
      | nil => exact first (by simp)
      | cons c r =>
        rw [List.cons_prefix_cons] at hq
        obtain ⟨rfl, hq⟩ := hq
        rw [scanNats_natText hn (stop_space (by decide))]
        simp

theorem sizes_sep (a b : Nat) : natText a ++ ' ' :: (natText b ++ [' ', '0']) = sepText [a, b, 0] := by
  simp [sepText, natText]

/-- A face line cut short is a face, or is refused; it is never undefined. -/
theorem parseFace_prefix {f : Face} (h60 : f.points.length < 2 ^ 60) (h : ∀ n ∈ f.points, n < szMod) {q : Text} (hq : q <+: faceText f) (h0 : q ≠ []) :
    parseFace q ≠ .ub := by
  have h64 : f.points.length < szMod := lt_trans h60 (by decide)
  have key : ∀ (n : Nat) (r : List Nat), r.length ≤ n → fillIndexes n r ≠ .ub := by
    intro n r hr
    unfold fillIndexes
    split
    · simp
    · rw [if_neg (by omega)]
      unfold Face.mk?
      split <;> simp
  have first : q <+: natText f.points.length → parseFace q ≠ .ub := by
    intro hp
    have hv : natVal q ≤ f.points.length := by simpa [natVal_natText] using natVal_prefix hp
    have := scanNat_digits (ds := q) (rest := []) (fun c hc => natText_digits _ c (hp.subset hc)) h0 (lt_of_le_of_lt hv h64) stop_nil
    rw [List.append_nil] at this
    unfold parseFace
    rw [this]
    simp only [scanNats_nil]
    exact key _ _ (by simp)
  unfold faceText at hq
  rcases List.prefix_or_prefix_of_prefix hq (List.prefix_append _ _) with hp | hp
  · exact first hp
  · obtain ⟨r, rfl⟩ := hp
    rw [List.prefix_append_right_inj] at hq
    cases r with
    | nil => exact first (by simp)
    | cons c r =>
      rw [List.cons_prefix_cons] at hq
      obtain ⟨rfl, hq⟩ := hq
      unfold parseFace
      rw [scanNat_natText h64 (stop_space (by decide))]
      simp only
      rw [scanNats_space (by decide)]
      exact key _ _ (scan_prefix h hq).1

end Off
end City
