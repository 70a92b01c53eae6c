import Verif.Props.OffExact
/-!
C19, C21: what the reader of OFF does with texts that are not quite OFF: indexes that are missing, negative or too large, and sizes that
overflow.
-/
namespace City.Props
open City Spec

theorem words_cons_inv {l w : Text} {ws : List Text} (h : Words l (w :: ws)) :
    ∃ b r, l = b ++ (w ++ r) ∧ (∀ c ∈ b, White c) ∧ w ≠ [] ∧ (∀ c ∈ w, ¬ White c) ∧ (∀ c, r.head? = some c → White c) ∧ Words r ws := by
  cases h with
  | cons hb hw hn hs hr => exact ⟨_, _, rfl, hb, hw, hn, hs, hr⟩

theorem words_nil_inv {l : Text} (h : Words l []) : ∀ c ∈ l, White c := by
  cases h with
  | nil hb => exact hb

/-- The start of an extraction after a sign. -/
theorem scanNat_signed {b s d r : Text} {v : ℤ} {k : ℕ} (hb : ∀ c ∈ b, White c) (hs : Sign s v) (hd : IsNat d k) (hr : Stop r) :
    scanNat (b ++ (s ++ d ++ r)) = if 2 ^ 64 ≤ k then .fail (some (2 ^ 64 - 1))
      else .got (if v < 0 then (2 ^ 64 - k) % 2 ^ 64 else k) r := by
  obtain ⟨hd, hne, rfl⟩ := hd
  have hdd := digits_all hd
  obtain ⟨c, w', rfl⟩ : ∃ c w', d = c :: w' := by cases d with
    | nil => exact absurd rfl hne
    | cons c w' => exact ⟨c, w', rfl⟩
  have hc := hdd c (by simp)
  unfold scanNat
  rw [skipWs_white hb]
  have hh : ∀ x, (s ++ (c :: w') ++ r).head? = some x → isSpace x = false := by
    intro x hx
    cases hs with
    | none => simp at hx; subst hx; exact not_space_of_digit hc
    | plus => simp at hx; subst hx; decide
    | minus => simp at hx; subst hx; decide
  rw [skipWs_of_head hh, if_neg (by simp), List.append_assoc, takeSign_sign hs (by
    intro x hx; simp at hx; subst hx
    have := digit_ne_sign hc
    exact ⟨this.1, this.2.1⟩)]
  obtain ⟨h1, h2⟩ := takeWhile_digits hdd (stop_not_digit hr)
  simp only
  rw [h1, h2, if_neg (by simp), natVal_eq]
  have hsz : szMod = 2 ^ 64 := rfl
  rw [hsz]
  cases hs <;> simp

theorem scanNat_index {b w r : Text} {n : ℕ} (hb : ∀ c ∈ b, White c) (hw : IsIndex w n) (hr : Stop r) :
    scanNat (b ++ (w ++ r)) = .got n r := by
  cases hw with
  | @mk s d v k n hs hd hk hn =>
    rw [scanNat_signed hb hs hd hr, if_neg (by omega)]
    congr 1
    cases hs with
    | none => rw [if_neg (by omega)]; omega
    | plus => rw [if_neg (by omega)]; omega
    | minus => rw [if_pos (by omega)]; omega

theorem scanNat_noIndex {b w r : Text} (hb : ∀ c ∈ b, White c) (hne : w ≠ []) (hw : NoIndex w) (hn : ∀ c ∈ w, ¬ White c) (hnl : '\n' ∉ w)
    (hr : Stop r) : ∃ o, scanNat (b ++ (w ++ r)) = .fail o := by
  cases hw with
  | @large s d v k hs hd hk =>
    rw [scanNat_signed hb hs hd hr, if_pos hk]
    exact ⟨_, rfl⟩
  | @other s x v hs hx =>
    unfold scanNat
    rw [skipWs_white hb]
    have hh : ∀ c, (s ++ x ++ r).head? = some c → isSpace c = false := by
      intro c hc
      cases hsx : s ++ x with
      | nil => exact absurd hsx hne
      | cons y z =>
        rw [hsx] at hc
        simp at hc
        subst hc
        have hm : y ∈ s ++ x := by rw [hsx]; simp
        exact not_white_space (hn y hm) fun e => hnl (e ▸ hm)
    have hd : ∀ c, (x ++ r).head? = some c → isDigit c = false ∧ c ≠ '-' ∧ c ≠ '+' := by
      intro c hc
      cases x with
      | nil =>
        have := stop_ne hr hc
        exact ⟨stop_not_digit hr c hc, this.1, this.2.1⟩
      | cons y z =>
        simp at hc
        subst hc
        obtain ⟨h1, h2, h3⟩ := hx y rfl
        refine ⟨?_, h3, h2⟩
        by_contra hdig
        rw [Bool.not_eq_false] at hdig
        apply h1
        have : ∀ c ∈ [y], isDigit c = true := by simpa using hdig
        intro c hc
        have := this c hc
        simp only [isDigit, decide_eq_true_eq] at this
        obtain ⟨h1, h2⟩ := this
        have hc : c = Char.ofNat c.toNat := by simp
        rw [hc]
        generalize c.toNat = n at *
        interval_cases n <;> decide
    rw [skipWs_of_head hh]
    have hne' : s ++ x ++ r ≠ [] := by simp only [ne_eq, List.append_eq_nil_iff] at hne ⊢; tauto
    rw [if_neg hne', List.append_assoc, takeSign_sign hs fun c hc => (hd c hc).2]
    simp only
    have : (x ++ r).takeWhile isDigit = [] := by
      cases hxr : x ++ r with
      | nil => rfl
      | cons y z =>
        rw [hxr] at hd
        rw [List.takeWhile_cons, (hd y rfl).1]
        rfl
    rw [this, if_pos rfl]
    exact ⟨_, rfl⟩

theorem scanNats_index {l : Text} {ns : List ℕ} (h : IndexLine l ns) (hnl : '\n' ∉ l) : scanNats l = ns := by
  obtain ⟨ws, us, hw, hf, hu⟩ := h
  induction hf generalizing l with
  | nil =>
    rw [List.nil_append] at hw
    cases us with
    | nil => exact scanNats_white (words_nil_inv hw)
    | cons u us =>
      obtain ⟨b, r, rfl, hb, hne, hn, hs, hr⟩ := words_cons_inv hw
      obtain ⟨o, ho⟩ := scanNat_noIndex hb hne (hu u rfl) hn (by intro hm; exact hnl (by simp [hm])) (stop_of_white hs)
      exact scanNats_fail ho
  | cons h1 _ ih =>
    rw [List.cons_append] at hw
    obtain ⟨b, r, rfl, hb, hne, hn, hs, hr⟩ := words_cons_inv hw
    rw [scanNats_got (scanNat_index hb h1 (stop_of_white hs)), ih (by intro hm; exact hnl (by simp [hm])) hr]

theorem parseFace_eq {l : Text} {n : ℕ} {is : List ℕ} (h : scanNats l = n :: is) : Off.parseFace l = Off.fillIndexes n is := by
  unfold Off.parseFace
  cases hs : scanNat l with
  | got k r =>
    rw [scanNats_got hs] at h
    injection h with h1 h2
    subst h1 h2
    rfl
  | fail o => rw [scanNats_fail hs] at h; cases h

theorem scanDecs_prefix {rnd : ℚ → ℚ} {l : Text} {ws us : List Text} {qs : List ℚ} (hw : Words l (ws ++ us))
    (hf : List.Forall₂ IsDec ws qs) (hn : ∀ q ∈ qs, |q| < dblOverflow) : ∃ r, scanDecs rnd l = qs.map rnd ++ r := by
  induction hf generalizing l with
  | nil => exact ⟨_, rfl⟩
  | @cons w q ws qs h1 _ ih =>
    rw [List.cons_append] at hw
    obtain ⟨b, r, rfl, hb, hne, hnw, hs, hr⟩ := words_cons_inv hw
    obtain ⟨r', hr'⟩ := ih hr fun q hq => hn q (by simp [hq])
    exact ⟨r', by rw [scanDecs_got rnd (scanDec_word hb h1 (hn q (by simp)) (stop_of_white hs)), hr']; rfl⟩

theorem parsePoint_loose {rnd : ℚ → ℚ} {l : Text} {p : V3 ℚ} (h : ∃ ws us, Words l (ws ++ us) ∧ List.Forall₂ IsDec ws [p.x, p.y, p.z])
    (hf : DecFinite p) : Off.parsePoint rnd l = .ok (convert rnd p) := by
  obtain ⟨f1, f2, f3⟩ := hf
  obtain ⟨ws, us, hw, hd⟩ := h
  obtain ⟨r, hr⟩ := scanDecs_prefix (rnd := rnd) hw hd (by
    intro q hq
    simp only [List.mem_cons, List.not_mem_nil, or_false] at hq
    rcases hq with rfl | rfl | rfl <;> assumption)
  unfold Off.parsePoint
  rw [hr]
  rfl

/-- The vertices of a face: the indexes of the line, completed with zeros. -/
def filled (f : ℕ × List ℕ) : List ℕ := f.2 ++ List.replicate (f.1 - f.2.length) 0

/-- C21: how texts with missing, negative or too large indexes are read: negative indexes count modulo 2^64, the indexes stop at the first
word that is no 64 bit number, and missing ones are zeros. Nothing is refused. -/
theorem C21_loose_partial (rnd : ℚ → ℚ) (lf : Bool) (t : Text) (ps : List (V3 ℚ)) (fs : List (ℕ × List ℕ)) (h : LooseOff t ps fs)
    (hp : ∀ p ∈ ps, DecFinite p) (h3 : ∀ f ∈ fs, 3 ≤ f.1 ∧ f.2.length ≤ f.1 ∧ f.1 < 2 ^ 60)
    (hs : ps.length < 2 ^ 58 ∧ fs.length < 2 ^ 58) :
    Off.read rnd lf t = .ok (Mesh.make [] (ps.map (convert rnd)) (fs.map fun f => ⟨filled f⟩)) := by
  obtain ⟨ls, l1, pl, fl, hl, hne, hc, hcount, hpl, hfl⟩ := h
  obtain ⟨s1, s2⟩ := hs
  have hr := readlines_of_lines hl
  have hc' : contentLines t = ['O', 'F', 'F'] :: l1 :: (pl ++ fl) := by
    rw [← hc]
    unfold contentLines
    rw [hr]
    apply List.filter_congr
    intro l _
    simp [isCommentLine, Bool.beq_eq_decide_eq]
  have hnl : ∀ l ∈ fl, '\n' ∉ l := by
    intro l hm
    apply mem_lines hl
    have : l ∈ ls.filter (fun l => l.head? ≠ some '#') := by rw [hc]; simp [hm]
    exact (List.mem_filter.1 this).1
  unfold Off.read
  rw [parseLines_eq, if_neg (by rw [hr]; exact hne), Out.ok_bind]
  have e : (readlines t).filter (fun l => !isCommentLine l) = contentLines t := rfl
  rw [e, hc']
  simp only [ne_eq, not_true_eq_false, if_false]
  have hlp := hpl.length_eq
  have hlf := hfl.length_eq
  have hsz : szMod = 2 ^ 64 := rfl
  have hh : Off.readHeader (['O', 'F', 'F'] :: l1 :: (pl ++ fl)) l1 = .ok (ps.length, fs.length) := by
    unfold Off.readHeader
    rw [scanNats_line hcount (by
      intro n hn
      simp only [List.mem_cons, List.not_mem_nil, or_false] at hn
      rcases hn with rfl | rfl | rfl <;> omega)]
    simp only [List.length_cons, List.length_nil, List.getD_cons_zero, List.getD_cons_succ, List.length_append]
    rw [if_neg (by omega), if_neg (by simp), if_neg (by rw [hlp, hlf, Nat.mod_eq_of_lt (by omega)]; omega)]
  rw [hh, Out.ok_bind]
  have h1 : Off.readPoints rnd (['O', 'F', 'F'] :: l1 :: (pl ++ fl)) ps.length = .ok (ps.map (convert rnd)) := by
    unfold Off.readPoints Off.slice
    rw [if_neg (by omega), if_pos (by simp; omega), Out.ok_bind]
    rw [show (['O', 'F', 'F'] :: l1 :: (pl ++ fl)).drop 2 = pl ++ fl from rfl, ← hlp, List.take_left, Out.mapM_eq_ok,
      List.forall₂_map_right_iff]
    clear hh hcount hc hc' e hl hne hr hlp hlf s1 hfl
    induction hpl with
    | nil => exact .nil
    | cons h _ ih => exact .cons (parsePoint_loose h (hp _ (by simp))) (ih fun p hp' => hp p (by simp [hp']))
  have h2 : Off.readFaces (['O', 'F', 'F'] :: l1 :: (pl ++ fl)) ((2 + ps.length) % szMod) fs.length =
      .ok (fs.map fun f => ⟨filled f⟩) := by
    unfold Off.readFaces Off.slice
    rw [Nat.mod_eq_of_lt (by omega), if_neg (by omega), if_pos (by simp; omega), Out.ok_bind]
    have : (['O', 'F', 'F'] :: l1 :: (pl ++ fl)).drop (2 + ps.length) = fl := by
      rw [show 2 + ps.length = pl.length + 2 by omega, List.drop_succ_cons, List.drop_succ_cons, List.drop_left]
    rw [this, ← hlf, List.take_length, Out.mapM_eq_ok, List.forall₂_map_right_iff]
    clear hh hcount hc hc' e hl hne hr hlp hlf s1 s2 hpl h1 this
    induction hfl with
    | nil => exact .nil
    | @cons l f _ _ h _ ih =>
      refine .cons ?_ (ih (fun f hf => h3 f (by simp [hf])) fun l hl => hnl l (by simp [hl]))
      obtain ⟨k3, k1, k60⟩ := h3 f (by simp)
      rw [parseFace_eq (scanNats_index h (hnl l (by simp)))]
      unfold Off.fillIndexes Face.mk?
      rw [if_neg (by omega), if_neg (by omega), if_neg (by simp; omega)]
      rfl
  rw [(Out.both_ok (p := (_, _))).2 ⟨h1, h2⟩, Out.ok_bind]
  rfl

/-- The index -1 is one: 2^64 - 1. The word x and the number 2^64 are none. -/
example : IsIndex "-1".toList (2 ^ 64 - 1) ∧ IndexLine " 3 0 -1 x 2".toList [3, 0, 2 ^ 64 - 1] ∧ NoIndex "18446744073709551616".toList := by
  have n : ∀ c ∈ ['0', '1', '2', '3'], IsNat [c] (c.toNat - 48) := by
    intro c hc
    simp only [List.mem_cons, List.not_mem_nil, or_false] at hc
    rcases hc with rfl | rfl | rfl | rfl <;> exact ⟨by decide, by decide, by decide⟩
  have m1 : IsIndex ['-', '1'] (2 ^ 64 - 1) := IsIndex.mk .minus (n '1' (by decide)) (by decide) (by decide)
  refine ⟨m1, ⟨[['3'], ['0'], ['-', '1']], [['x'], ['2']], ?_, ?_, ?_⟩, ?_⟩
  · have w : ∀ c : Char, ¬ White c → ∀ x ∈ [c], ¬ White x := by intro c hc x hx; rw [List.mem_singleton.1 hx]; exact hc
    have sp : ∀ c ∈ ([' '] : Text), White c := by intro c hc; simp at hc; subst hc; simp [White]
    have hd : ∀ (x : Text) c, (' ' :: x).head? = some c → White c := by intro x c hc; simp at hc; subst hc; simp [White]
    exact .cons (b := [' ']) (w := ['3']) sp (by simp) (by simp [White]) (hd _)
      (.cons (b := [' ']) (w := ['0']) sp (by simp) (by simp [White]) (hd _)
      (.cons (b := [' ']) (w := ['-', '1']) sp (by simp) (by simp [White]) (hd _)
      (.cons (b := [' ']) (w := ['x']) sp (by simp) (by simp [White]) (hd _)
      (.cons (b := [' ']) (w := ['2']) (r := []) sp (by simp) (by simp [White]) (by simp) (.nil (by simp))))))
  · exact .cons (IsIndex.mk .none (n '3' (by decide)) (by decide) (by decide))
      (.cons (IsIndex.mk .none (n '0' (by decide)) (by decide) (by decide)) (.cons m1 .nil))
  · intro u hu
    simp at hu
    subst hu
    exact NoIndex.other (s := []) .none (by intro c hc; simp at hc; subst hc; simp [Digits])
  · exact NoIndex.large (s := []) .none (⟨by unfold Digits; decide, by decide, rfl⟩ : IsNat _ _) (by decide)

/-- Reading the points is undefined: the declared number of lines is not there (possible when the sizes overflow), or a line is short. -/
def PointsUndefined (rnd : ℚ → ℚ) (lines : List Text) (n : ℕ) : Prop :=
  n < 2 ^ 58 ∧ (lines.length < 2 + n ∨ ∃ l ∈ (lines.drop 2).take n, ShortPoint rnd l)

/-- The points can be read. -/
def PointsFine (rnd : ℚ → ℚ) (lines : List Text) (n : ℕ) : Prop :=
  n < 2 ^ 58 ∧ 2 + n ≤ lines.length ∧ ∀ l ∈ (lines.drop 2).take n, ¬ ShortPoint rnd l

/-- Reading the faces is undefined. -/
def FacesUndefined (lines : List Text) (first n : ℕ) : Prop :=
  n < 2 ^ 58 ∧ (lines.length < first + n ∨ FirstLong ((lines.drop first).take n))

/-- The faces can be read. -/
def FacesFine (lines : List Text) (first n : ℕ) : Prop :=
  n < 2 ^ 58 ∧ first + n ≤ lines.length ∧ ∀ l ∈ (lines.drop first).take n, GoodFace l

theorem slice_cases {lines : List Text} {lo n : ℕ} :
    (Off.slice lines lo n = .ub ↔ n < 2 ^ 58 ∧ lines.length < lo + n) ∧
    ∀ b, Off.slice lines lo n = .ok b ↔ n < 2 ^ 58 ∧ lo + n ≤ lines.length ∧ b = (lines.drop lo).take n := by
  unfold Off.slice
  by_cases h1 : 2 ^ 58 ≤ n
  · rw [if_pos h1]
    exact ⟨by simp; omega, by intro b; simp; omega⟩
  · rw [if_neg h1]
    by_cases h2 : lo + n ≤ lines.length
    · rw [if_pos h2]
      refine ⟨by simp; omega, fun b => ?_⟩
      simp only [Out.ok.injEq]
      constructor
      · intro h; exact ⟨by omega, h2, h.symm⟩
      · rintro ⟨-, -, h⟩; exact h.symm
    · rw [if_neg h2]
      refine ⟨by simp; omega, fun b => by simp; omega⟩

theorem points_cases {rnd : ℚ → ℚ} {lines : List Text} {n : ℕ} :
    (Off.readPoints rnd lines n = .ub ↔ PointsUndefined rnd lines n) ∧
    ((∃ v, Off.readPoints rnd lines n = .ok v) ↔ PointsFine rnd lines n) := by
  unfold Off.readPoints PointsUndefined PointsFine
  constructor
  · rw [Out.bind_eq_ub, slice_cases.1]
    constructor
    · rintro (h | ⟨b, hb, h⟩)
      · exact ⟨h.1, Or.inl h.2⟩
      · obtain ⟨h1, h2, rfl⟩ := (slice_cases.2 b).1 hb
        exact ⟨h1, Or.inr (readPoints_ub.1 h)⟩
    · rintro ⟨h1, h⟩
      by_cases h2 : lines.length < 2 + n
      · exact Or.inl ⟨h1, h2⟩
      · refine Or.inr ⟨_, (slice_cases.2 _).2 ⟨h1, by omega, rfl⟩, readPoints_ub.2 ?_⟩
        exact h.resolve_left h2
  · constructor
    · rintro ⟨v, hv⟩
      obtain ⟨b, hb, h⟩ := Out.bind_eq_ok.1 hv
      obtain ⟨h1, h2, rfl⟩ := (slice_cases.2 b).1 hb
      exact ⟨h1, h2, mapM_parsePoint_ok.1 ⟨v, h⟩⟩
    · rintro ⟨h1, h2, h⟩
      obtain ⟨v, hv⟩ := mapM_parsePoint_ok.2 h
      exact ⟨v, by rw [(slice_cases.2 _).2 ⟨h1, h2, rfl⟩, Out.ok_bind, hv]⟩

theorem faces_cases {lines : List Text} {first n : ℕ} :
    (Off.readFaces lines first n = .ub ↔ FacesUndefined lines first n) ∧
    ((∃ v, Off.readFaces lines first n = .ok v) ↔ FacesFine lines first n) := by
  unfold Off.readFaces FacesUndefined FacesFine
  constructor
  · rw [Out.bind_eq_ub, slice_cases.1]
    constructor
    · rintro (h | ⟨b, hb, h⟩)
      · exact ⟨h.1, Or.inl h.2⟩
      · obtain ⟨h1, h2, rfl⟩ := (slice_cases.2 b).1 hb
        exact ⟨h1, Or.inr (readFaces_ub.1 h)⟩
    · rintro ⟨h1, h⟩
      by_cases h2 : lines.length < first + n
      · exact Or.inl ⟨h1, h2⟩
      · refine Or.inr ⟨_, (slice_cases.2 _).2 ⟨h1, by omega, rfl⟩, readFaces_ub.2 ?_⟩
        exact h.resolve_left h2
  · constructor
    · rintro ⟨v, hv⟩
      obtain ⟨b, hb, h⟩ := Out.bind_eq_ok.1 hv
      obtain ⟨h1, h2, rfl⟩ := (slice_cases.2 b).1 hb
      exact ⟨h1, h2, mapM_parseFace_ok.1 ⟨v, h⟩⟩
    · rintro ⟨h1, h2, h⟩
      obtain ⟨v, hv⟩ := mapM_parseFace_ok.2 h
      exact ⟨v, by rw [(slice_cases.2 _).2 ⟨h1, h2, rfl⟩, Out.ok_bind, hv]⟩

/-- C19: the exact texts on which reading is undefined, all sizes included: the number of lines is compared modulo 2^64, so that a text can
declare more points or faces than it has lines and be read beyond its end. -/
theorem C19_exact_sizes (rnd : ℚ → ℚ) (lf : Bool) (t : Text) :
    Off.read rnd lf t = .ub ↔ [] ∉ readlines t ∧ ∃ l1 rest, contentLines t = ['O', 'F', 'F'] :: l1 :: rest ∧
      (3 < (scanNats l1).length ∨ (scanNats l1).getD 2 0 = 0 ∧
        let np := (scanNats l1).getD 0 0
        let nf := (scanNats l1).getD 1 0
        let first := (2 + np) % 2 ^ 64
        (contentLines t).length = (2 + np + nf) % 2 ^ 64 ∧
        if lf then PointsUndefined rnd (contentLines t) np ∨ PointsFine rnd (contentLines t) np ∧ FacesUndefined (contentLines t) first nf
        else FacesUndefined (contentLines t) first nf ∨ FacesFine (contentLines t) first nf ∧ PointsUndefined rnd (contentLines t) np) := by
  unfold Off.read
  rw [parseLines_eq]
  by_cases he : [] ∈ readlines t
  · rw [if_pos he]; simp [he]
  rw [if_neg he, Out.ok_bind]
  have hc : (readlines t).filter (fun l => !isCommentLine l) = contentLines t := rfl
  rw [hc]
  generalize contentLines t = ls
  match ls with
  | [] => simp
  | [l0] => simp only; split <;> simp
  | l0 :: l1 :: rest =>
    simp only
    by_cases h0 : l0 = ['O', 'F', 'F']
    swap
    · rw [if_pos h0]
      simp [h0]
    rw [if_neg (not_not.2 h0)]
    subst h0
    simp only [he, not_false_eq_true, true_and]
    have hR : ∀ P : Text → Prop, (∃ l1' rest', ['O', 'F', 'F'] :: l1 :: rest = ['O', 'F', 'F'] :: l1' :: rest' ∧ P l1') ↔ P l1 := by
      intro P
      constructor
      · rintro ⟨a, b, e, h⟩
        injection e with _ e
        injection e with e1 e2
        subst e1 e2
        exact h
      · intro h; exact ⟨l1, rest, rfl, h⟩
    rw [hR fun l1' => (3 < (scanNats l1').length ∨ (scanNats l1').getD 2 0 = 0 ∧ _)]
    unfold Off.readHeader
    simp only
    by_cases h3 : 3 < (scanNats l1).length
    · rw [if_pos h3]; simp [h3]
    rw [if_neg h3]
    by_cases h2 : (scanNats l1).getD 2 0 ≠ 0
    · rw [if_pos h2]; simp only [h3, h2]; simp
    rw [if_neg h2]
    rw [not_not] at h2
    set s0 := (scanNats l1).getD 0 0
    set s1 := (scanNats l1).getD 1 0
    rw [show szMod = 2 ^ 64 from rfl]
    by_cases hlen : (['O', 'F', 'F'] :: l1 :: rest).length ≠ (2 + s0 + s1) % 2 ^ 64
    · rw [if_pos hlen]
      simp only [h3, hlen, Out.thrown_bind, false_or, false_and, and_false]
      simp
    rw [if_neg hlen, Out.ok_bind]
    simp only
    rw [not_not] at hlen
    have hb : ∀ x : Out (List (V3 ℚ) × List Face), (x >>= fun r => .ok (Mesh.makeAnon r.1 r.2)) = .ub ↔ x = .ub := by
      intro x
      rw [Out.bind_eq_ub]
      constructor
      · rintro (h | ⟨_, _, h⟩)
        · exact h
        · cases h
      · exact Or.inl
    rw [hb, both_eq_ub, points_cases.1, points_cases.2, faces_cases.1, faces_cases.2]
    simp only [h3, h2, hlen, false_or, true_and]

/-- A text of four lines that declares 2^64 - 3 points and 5 faces: with the faces looked at first, lines before the beginning are read. -/
example (rnd : ℚ → ℚ) (t l1 l2 l3 : Text) (ht : [] ∉ readlines t) (hc : contentLines t = [['O', 'F', 'F'], l1, l2, l3])
    (hs : scanNats l1 = [2 ^ 64 - 3, 5, 0]) : Off.read rnd false t = .ub := by
  refine (C19_exact_sizes rnd false t).2 ⟨ht, l1, [l2, l3], hc, Or.inr ⟨by simp [hs], ?_, ?_⟩⟩
  · simp [hs, hc]
  · rw [if_neg (by simp)]
    exact Or.inl ⟨by simp [hs], Or.inl (by simp [hs, hc])⟩

end City.Props
