import Verif.Props.OffExact
/-!
C26: the exact texts on which reading OBJ is undefined.
-/
namespace City.Props
open City Spec

/-- The sections of a text: each line beginning with the letter o (without this letter), and the lines up to the next one. -/
def Sections (t : Text) (secs : List (Text × List Text)) : Prop :=
  ∃ pre, otherLines t = pre ++ secs.flatMap (fun s => ('o' :: s.1) :: s.2) ∧ (∀ l ∈ pre, l.head? ≠ some 'o') ∧
    ∀ s ∈ secs, ∀ l ∈ s.2, l.head? ≠ some 'o'

/-- The first word of a line. -/
def firstWord (l : Text) : Text := (l.dropWhile isSpace).takeWhile fun c => !isSpace c

/-- The first section of its name: the others of that name are not looked at. -/
def FirstNamed (secs : List (Text × List Text)) (s : Text × List Text) : Prop :=
  ∃ a b, secs = a ++ s :: b ∧ ∀ x ∈ a, firstWord x.1 ≠ firstWord s.1

/-- A face line that gives a face. -/
def FacetFine (rnd : ℚ → ℚ) (l : Text) : Prop :=
  3 ≤ (scanDecs rnd l.tail).length ∧ ∀ q ∈ scanDecs rnd l.tail, -1 < q ∧ q < 2 ^ 64

/-- A face line with a number that is no index: the conversion to an unsigned number is undefined. -/
def FacetUndefined (rnd : ℚ → ℚ) (l : Text) : Prop := ∃ q ∈ scanDecs rnd l.tail, q ≤ -1 ∨ 2 ^ 64 ≤ q

/-- A section that gives a mesh. -/
def SectionFine (rnd : ℚ → ℚ) (vertices : ℕ) (ls : List Text) : Prop :=
  ∀ l ∈ ls, FacetFine rnd l ∧ ∀ q ∈ scanDecs rnd l.tail, q < vertices + 1

/-- A section whose reading is undefined: the first line that gives no face has a number that is no index, or all lines give faces and one
of them has an index without vertex. -/
def SectionUndefined (rnd : ℚ → ℚ) (vertices : ℕ) (ls : List Text) : Prop :=
  (∃ a l b, ls = a ++ l :: b ∧ (∀ x ∈ a, FacetFine rnd x) ∧ FacetUndefined rnd l) ∨
    (∀ l ∈ ls, FacetFine rnd l) ∧ ∃ l ∈ ls, ∃ q ∈ scanDecs rnd l.tail, (vertices : ℚ) + 1 ≤ q

theorem toIndex_cases (q : ℚ) : (q ≤ -1 ∨ 2 ^ 64 ≤ q) ∧ Obj.toIndex q = .ub ∨ (-1 < q ∧ q < 2 ^ 64) ∧ Obj.toIndex q = .ok ⌊q⌋₊ := by
  unfold Obj.toIndex
  by_cases h : q ≤ -1 ∨ 2 ^ 64 ≤ q
  · exact Or.inl ⟨h, if_pos h⟩
  · right
    refine ⟨?_, if_neg h⟩
    rw [not_or, not_le, not_le] at h
    exact h

theorem mapM_toIndex (qs : List ℚ) :
    (∃ q ∈ qs, q ≤ -1 ∨ 2 ^ 64 ≤ q) ∧ Out.mapM Obj.toIndex qs = .ub ∨
    (∀ q ∈ qs, -1 < q ∧ q < 2 ^ 64) ∧ Out.mapM Obj.toIndex qs = .ok (qs.map fun q => ⌊q⌋₊) := by
  induction qs with
  | nil => right; exact ⟨by simp, rfl⟩
  | cons q qs ih =>
    rw [Out.mapM_cons]
    rcases toIndex_cases q with ⟨h1, h2⟩ | ⟨h1, h2⟩
    · left; rw [h2, Out.ub_bind]; exact ⟨⟨q, by simp, h1⟩, rfl⟩
    · rw [h2, Out.ok_bind]
      rcases ih with ⟨⟨x, hx, h3⟩, h4⟩ | ⟨h3, h4⟩
      · left; rw [h4, Out.ub_bind]; exact ⟨⟨x, by simp [hx], h3⟩, rfl⟩
      · right; rw [h4, Out.ok_bind]
        refine ⟨?_, rfl⟩
        intro x hx
        rcases List.mem_cons.1 hx with rfl | hx
        exacts [h1, h3 x hx]

/-- The indexes of a line. -/
def facetIndexes (rnd : ℚ → ℚ) (l : Text) : List ℕ := (scanDecs rnd l.tail).map fun q => ⌊q⌋₊

theorem readFacet_cases {rnd : ℚ → ℚ} {l : Text} {seen : List ℕ} :
    (Obj.readFacet rnd l.tail seen = .ub ↔ FacetUndefined rnd l) ∧
    (∀ r, Obj.readFacet rnd l.tail seen = .ok r → FacetFine rnd l ∧ r.2 = Obj.addSeen seen (facetIndexes rnd l)) ∧
    (FacetFine rnd l → ∃ r, Obj.readFacet rnd l.tail seen = .ok r) := by
  unfold Obj.readFacet FacetUndefined FacetFine facetIndexes
  rcases mapM_toIndex (scanDecs rnd l.tail) with ⟨h1, h2⟩ | ⟨h1, h2⟩
  · rw [h2, Out.ub_bind]
    refine ⟨by simp [h1], by simp, ?_⟩
    rintro ⟨-, h⟩
    obtain ⟨q, hq, hc⟩ := h1
    have := h q hq
    exfalso
    rcases hc with hc | hc <;> linarith
  · rw [h2, Out.ok_bind]
    have hno : ¬ ∃ q ∈ scanDecs rnd l.tail, q ≤ -1 ∨ 2 ^ 64 ≤ q := by
      rintro ⟨q, hq, hc⟩
      have := h1 q hq
      rcases hc with hc | hc <;> linarith
    unfold Face.mk?
    simp only [List.length_map]
    by_cases h3 : (scanDecs rnd l.tail).length < 3
    · rw [if_pos h3, Out.thrown_bind]
      exact ⟨by simp [hno], by simp, fun h => by omega⟩
    · rw [if_neg h3, Out.ok_bind]
      refine ⟨by simp [hno], ?_, fun _ => ⟨_, rfl⟩⟩
      intro r hr
      cases hr
      exact ⟨⟨by omega, h1⟩, rfl⟩

theorem readFacets_cases {rnd : ℚ → ℚ} {ls : List Text} {seen : List ℕ} :
    (Obj.readFacets rnd ls seen = .ub ↔ ∃ a l b, ls = a ++ l :: b ∧ (∀ x ∈ a, FacetFine rnd x) ∧ FacetUndefined rnd l) ∧
    (∀ r, Obj.readFacets rnd ls seen = .ok r → (∀ l ∈ ls, FacetFine rnd l) ∧ r.2 = Obj.addSeen seen (ls.flatMap (facetIndexes rnd))) ∧
    ((∀ l ∈ ls, FacetFine rnd l) → ∃ r, Obj.readFacets rnd ls seen = .ok r) := by
  induction ls generalizing seen with
  | nil =>
    refine ⟨by simp [Obj.readFacets], ?_, fun _ => ⟨_, rfl⟩⟩
    intro r hr
    cases hr
    exact ⟨by simp, rfl⟩
  | cons l ls ih =>
    rw [Obj.readFacets]
    obtain ⟨c1, c2, c3⟩ := readFacet_cases (rnd := rnd) (l := l) (seen := seen)
    cases hl : Obj.readFacet rnd l.tail seen with
    | ok r =>
      rw [Out.ok_bind]
      obtain ⟨f1, f2⟩ := c2 r hl
      have hno : ¬ FacetUndefined rnd l := fun h => by rw [c1.2 h] at hl; cases hl
      obtain ⟨i1, i2, i3⟩ := ih (seen := r.2)
      refine ⟨?_, ?_, ?_⟩
      · rw [Out.bind_eq_ub]
        have : (Obj.readFacets rnd ls r.2 = .ub ∨ ∃ a, Obj.readFacets rnd ls r.2 = .ok a ∧ Out.ok (r.1 :: a.1, a.2) = .ub) ↔
            Obj.readFacets rnd ls r.2 = .ub := by
          constructor
          · rintro (h | ⟨_, _, h⟩)
            · exact h
            · cases h
          · exact Or.inl
        rw [this, i1]
        constructor
        · rintro ⟨a, x, b, rfl, ha, hx⟩
          refine ⟨l :: a, x, b, rfl, ?_, hx⟩
          intro y hy
          rcases List.mem_cons.1 hy with rfl | hy
          exacts [f1, ha y hy]
        · rintro ⟨a, x, b, e, ha, hx⟩
          cases a with
          | nil => injection e with e1 e2; subst e1; exact absurd hx hno
          | cons a0 a =>
            injection e with e1 e2
            exact ⟨a, x, b, e2, fun y hy => ha y (by simp [hy]), hx⟩
      · intro r' hr'
        obtain ⟨rs, h1, h2⟩ := Out.bind_eq_ok.1 hr'
        cases h2
        obtain ⟨g1, g2⟩ := i2 rs h1
        refine ⟨?_, ?_⟩
        · intro y hy
          rcases List.mem_cons.1 hy with rfl | hy
          exacts [f1, g1 y hy]
        · rw [List.flatMap_cons, Obj.addSeen_append, ← f2]; exact g2
      · intro h
        obtain ⟨rs, hrs⟩ := i3 fun x hx => h x (by simp [hx])
        exact ⟨_, by rw [hrs, Out.ok_bind]⟩
    | thrown e =>
      rw [Out.thrown_bind]
      have hno : ¬ FacetUndefined rnd l := fun h => by rw [c1.2 h] at hl; cases hl
      have hnf : ¬ FacetFine rnd l := fun h => by obtain ⟨r, hr⟩ := c3 h; rw [hr] at hl; cases hl
      refine ⟨?_, by simp, fun h => absurd (h l (by simp)) hnf⟩
      constructor
      · intro h; cases h
      · rintro ⟨a, x, b, e', ha, hx⟩
        cases a with
        | nil => injection e' with e1 e2; subst e1; exact absurd hx hno
        | cons a0 a => injection e' with e1 e2; subst e1; exact absurd (ha l (by simp)) hnf
    | ub =>
      rw [Out.ub_bind]
      have hun := c1.1 hl
      have hnf : ¬ FacetFine rnd l := fun h => by obtain ⟨r, hr⟩ := c3 h; rw [hr] at hl; cases hl
      exact ⟨⟨fun _ => ⟨[], l, ls, rfl, by simp, hun⟩, fun _ => rfl⟩, by simp, fun h => absurd (h l (by simp)) hnf⟩

theorem select_cases (ps : List (V3 ℚ)) (seen : List ℕ) :
    ((∃ i ∈ seen, ps.length ≤ i) ∧ Obj.select ps seen = .ub) ∨ (∀ i ∈ seen, i < ps.length) ∧ ∃ v, Obj.select ps seen = .ok v := by
  unfold Obj.select
  induction seen with
  | nil => right; exact ⟨by simp, _, rfl⟩
  | cons i seen ih =>
    rw [Out.mapM_cons]
    by_cases h : i < ps.length
    · rw [Out.idx_ok h, Out.ok_bind]
      rcases ih with ⟨⟨j, hj, h1⟩, h2⟩ | ⟨h1, v, h2⟩
      · left; rw [h2, Out.ub_bind]; exact ⟨⟨j, by simp [hj], h1⟩, rfl⟩
      · right
        rw [h2, Out.ok_bind]
        refine ⟨?_, _, rfl⟩
        intro x hx
        rcases List.mem_cons.1 hx with rfl | hx
        exacts [h, h1 x hx]
    · left
      have : Out.idx ps i = .ub := by
        unfold Out.idx
        rw [List.getElem?_eq_none (by omega)]
      rw [this, Out.ub_bind]
      exact ⟨⟨i, by simp, by omega⟩, rfl⟩

theorem readObj_cases {rnd : ℚ → ℚ} {ps : List (V3 ℚ)} {o : Text × List Text} :
    (Obj.readObj rnd (⟨0, 0, 0⟩ :: ps) o = .ub ↔ SectionUndefined rnd ps.length o.2) ∧
    ((∃ v, Obj.readObj rnd (⟨0, 0, 0⟩ :: ps) o = .ok v) ↔ SectionFine rnd ps.length o.2) := by
  unfold Obj.readObj SectionUndefined SectionFine
  obtain ⟨c1, c2, c3⟩ := readFacets_cases (rnd := rnd) (ls := o.2) (seen := [])
  have hidx : ∀ r, Obj.readFacets rnd o.2 [] = .ok r → ((∃ i ∈ r.2, ps.length + 1 ≤ i) ↔
      ∃ l ∈ o.2, ∃ q ∈ scanDecs rnd l.tail, (ps.length : ℚ) + 1 ≤ q) := by
    intro r hr
    rw [(c2 r hr).2]
    constructor
    · rintro ⟨i, hi, h⟩
      rcases Obj.mem_addSeen.1 hi with hi | hi
      · simp at hi
      · obtain ⟨l, hl, hi⟩ := List.mem_flatMap.1 hi
        obtain ⟨q, hq, rfl⟩ := List.mem_map.1 hi
        have := Nat.floor_pos.1 (by omega : 0 < ⌊q⌋₊)
        refine ⟨l, hl, q, hq, ?_⟩
        have h2 := Nat.floor_le (by linarith : 0 ≤ q)
        have : ((ps.length + 1 : ℕ) : ℚ) ≤ ⌊q⌋₊ := by exact_mod_cast h
        push_cast at this
        linarith
    · rintro ⟨l, hl, q, hq, h⟩
      refine ⟨⌊q⌋₊, Obj.mem_addSeen.2 (Or.inr (List.mem_flatMap.2 ⟨l, hl, List.mem_map.2 ⟨q, hq, rfl⟩⟩)), ?_⟩
      apply Nat.le_floor
      push_cast
      exact h
  cases hf : Obj.readFacets rnd o.2 [] with
  | ub =>
    rw [Out.ub_bind]
    refine ⟨⟨fun _ => Or.inl (c1.1 hf), fun _ => rfl⟩, ?_⟩
    constructor
    · rintro ⟨v, hv⟩; cases hv
    · intro h
      obtain ⟨r, hr⟩ := c3 fun l hl => (h l hl).1
      rw [hf] at hr; cases hr
  | thrown e =>
    rw [Out.thrown_bind]
    have hn : ¬ ∀ l ∈ o.2, FacetFine rnd l := by
      intro h
      obtain ⟨r, hr⟩ := c3 h
      rw [hf] at hr; cases hr
    constructor
    · constructor
      · intro h; cases h
      · rintro (h | ⟨h, -⟩)
        · rw [c1.2 h] at hf; cases hf
        · exact absurd h hn
    · constructor
      · rintro ⟨v, hv⟩; cases hv
      · intro h; exact absurd (fun l hl => (h l hl).1) hn
  | ok r =>
    rw [Out.ok_bind]
    have hfine := (c2 r hf).1
    have hno : ¬ ∃ a l b, o.2 = a ++ l :: b ∧ (∀ x ∈ a, FacetFine rnd x) ∧ FacetUndefined rnd l := by
      intro h; rw [c1.2 h] at hf; cases hf
    have hi := hidx r hf
    rcases select_cases (⟨0, 0, 0⟩ :: ps) r.2 with ⟨h1, h2⟩ | ⟨h1, v, h2⟩
    · rw [List.length_cons] at h1
      rw [h2, Out.ub_bind]
      refine ⟨⟨fun _ => Or.inr ⟨hfine, hi.1 h1⟩, fun _ => rfl⟩, ?_⟩
      constructor
      · rintro ⟨v, hv⟩; cases hv
      · intro h
        obtain ⟨l, hl, q, hq, hc⟩ := hi.1 h1
        have := (h l hl).2 q hq
        exact absurd this (not_lt.2 hc)
    · rw [List.length_cons] at h1
      rw [h2, Out.ok_bind]
      have hno2 : ¬ ∃ l ∈ o.2, ∃ q ∈ scanDecs rnd l.tail, (ps.length : ℚ) + 1 ≤ q := by
        intro h
        obtain ⟨i, hi1, hi2⟩ := hi.2 h
        have := h1 i hi1
        omega
      constructor
      · constructor
        · intro h; cases h
        · rintro (h | ⟨-, h⟩)
          exacts [absurd h hno, absurd h hno2]
      · refine ⟨fun _ l hl => ⟨hfine l hl, fun q hq => ?_⟩, fun _ => ⟨_, rfl⟩⟩
        by_contra hc
        exact hno2 ⟨l, hl, q, hq, not_lt.1 hc⟩

theorem mapM_sorted_ub {α β : Type} {f : Text × α → Out β} {l : List (Text × α)} (hs : Obj.Sorted l) :
    Out.mapM f l = .ub ↔ ∃ x ∈ l, f x = .ub ∧ ∀ y ∈ l, y.1 < x.1 → ∃ v, f y = .ok v := by
  rw [mapM_eq_ub]
  unfold Obj.Sorted at hs
  constructor
  · rintro ⟨a, x, b, rfl, ha, hx⟩
    refine ⟨x, by simp, hx, ?_⟩
    intro y hy hlt
    rw [List.pairwise_append] at hs
    rcases List.mem_append.1 hy with hy | hy
    · exact ha y hy
    · exfalso
      rcases List.mem_cons.1 hy with rfl | hy
      · exact lt_irrefl _ hlt
      · have := (List.pairwise_cons.1 hs.2.1).1 y hy
        exact lt_asymm hlt this
  · rintro ⟨x, hx, hu, hy⟩
    obtain ⟨a, b, rfl⟩ := List.append_of_mem hx
    rw [List.pairwise_append] at hs
    exact ⟨a, x, b, rfl, fun y hya => hy y (by simp [hya]) (hs.2.2 y hya x (by simp)), hu⟩

theorem mem_emplaceAll_iff {α : Type} {xs : List (Text × α)} {x : Text × α} :
    x ∈ Obj.emplaceAll xs ↔ ∃ a b, xs = a ++ x :: b ∧ ∀ y ∈ a, y.1 ≠ x.1 := by
  have hs := Obj.sorted_emplaceAll xs
  have hf := find_emplaceAll x.1 xs
  have hiff : x ∈ Obj.emplaceAll xs ↔ (Obj.emplaceAll xs).find? (fun y => y.1 == x.1) = some x := by
    constructor
    · intro h
      generalize Obj.emplaceAll xs = l at h hs
      clear hf
      obtain ⟨a, b, rfl⟩ := List.append_of_mem h
      unfold Obj.Sorted at hs
      rw [List.pairwise_append] at hs
      rw [List.find?_append, List.find?_eq_none.2]
      · simp
      · intro y hy
        have := hs.2.2 y hy x (by simp)
        simpa using this.ne
    · intro h; exact List.mem_of_find?_eq_some h
  rw [hiff, hf, List.find?_eq_some_iff_append]
  simp

theorem readPoints_cases {rnd : ℚ → ℚ} {vl : List Text} :
    (Out.mapM (fun l => Obj.line2pt rnd (List.tail l)) vl = .ub ↔
      ∃ a l b, vl = a ++ l :: b ∧ (∀ x ∈ a, (scanDecs rnd x.tail).length = 3) ∧ (scanDecs rnd l.tail).length = 4) ∧
    ((∃ v, Out.mapM (fun l => Obj.line2pt rnd (List.tail l)) vl = .ok v) ↔ ∀ l ∈ vl, (scanDecs rnd l.tail).length = 3) := by
  have h1 : ∀ l : Text, (Obj.line2pt rnd l.tail = .ub ↔ (scanDecs rnd l.tail).length = 4) ∧
      ((∃ v, Obj.line2pt rnd l.tail = .ok v) ↔ (scanDecs rnd l.tail).length = 3) := by
    intro l
    unfold Obj.line2pt Obj.str2pt
    split
    · rename_i h; rw [h]; exact ⟨by simp, by simp⟩
    · rename_i h; rw [h]; exact ⟨by simp, by simp⟩
    · rename_i h3 h4
      refine ⟨⟨by simp, fun h => ?_⟩, ⟨by simp, fun h => ?_⟩⟩
      · obtain ⟨a, b, c, d, e⟩ := List.length_eq_four.1 h
        exact absurd e (h4 a b c d)
      · obtain ⟨a, b, c, e⟩ := List.length_eq_three.1 h
        exact absurd e (h3 a b c)
  constructor
  · rw [mapM_eq_ub]
    constructor
    · rintro ⟨a, x, b, e, ha, hx⟩
      exact ⟨a, x, b, e, fun y hy => (h1 y).2.1 (ha y hy), (h1 x).1.1 hx⟩
    · rintro ⟨a, x, b, e, ha, hx⟩
      exact ⟨a, x, b, e, fun y hy => (h1 y).2.2 (ha y hy), (h1 x).1.2 hx⟩
  · induction vl with
    | nil => exact ⟨fun _ => by simp, fun _ => ⟨[], rfl⟩⟩
    | cons c vl ih =>
      rw [Out.mapM_cons]
      constructor
      · rintro ⟨v, hv⟩
        obtain ⟨x, hx, hv⟩ := Out.bind_eq_ok.1 hv
        obtain ⟨xs, hxs, -⟩ := Out.bind_eq_ok.1 hv
        intro l hl
        rcases List.mem_cons.1 hl with rfl | hl
        exacts [(h1 l).2.1 ⟨x, hx⟩, ih.1 ⟨xs, hxs⟩ l hl]
      · intro h
        obtain ⟨x, hx⟩ := (h1 c).2.2 (h c (by simp))
        obtain ⟨xs, hxs⟩ := ih.2 fun l hl => h l (by simp [hl])
        exact ⟨_, by rw [hx, Out.ok_bind, hxs, Out.ok_bind]⟩

theorem isO_iff {l : Text} : Obj.isO l = false ↔ l.head? ≠ some 'o' := by
  unfold Obj.isO
  simp

/-- Every text has sections. -/
theorem sections_exist (t : Text) : ∃ secs, Sections t secs := by
  obtain ⟨pre, secs, h1, h2, h3⟩ := split_sections (otherLines t)
  exact ⟨secs, pre, h1, fun l hl => isO_iff.1 (h2 l hl), fun s hs l hl => isO_iff.1 (h3 s hs l hl)⟩

theorem read_sections {rnd : ℚ → ℚ} {t : Text} {secs : List (Text × List Text)} (hs : Sections t secs) (hne : objContent t ≠ []) :
    Obj.read rnd t = (Out.mapM (fun l => Obj.line2pt rnd (List.tail l)) (vertexLines t) >>= fun ps =>
      Out.mapM (Obj.readObj rnd (⟨0, 0, 0⟩ :: ps)) (Obj.emplaceAll (secs.map fun s => (firstWord s.1, s.2)))) := by
  obtain ⟨pre, h1, h2, h3⟩ := hs
  have h2 : ∀ l ∈ pre, Obj.isO l = false := fun l hl => isO_iff.2 (h2 l hl)
  have h3 : ∀ s ∈ secs, ∀ l ∈ s.2, Obj.isO l = false := fun s hs l hl => isO_iff.2 (h3 s hs l hl)
  have h1 : otherLines t = pre ++ secs.flatMap Obj.secLines := h1
  have hsplit : Obj.parse t = vertexLines t ++ otherLines t := (List.takeWhile_append_dropWhile ..).symm
  have hL : Obj.parse t = (vertexLines t ++ pre) ++ secs.flatMap Obj.secLines := by
    rw [hsplit]; conv_lhs => rw [h1]
    rw [List.append_assoc]
  have hres := Obj.resolve_sections (Obj.parse t) secs (vertexLines t ++ pre) hL h3
  have hdrop : (Obj.parse t).drop ((Obj.parse t).takeWhile Obj.isV).length = otherLines t := by
    have e : (Obj.parse t).takeWhile Obj.isV = vertexLines t := rfl
    rw [e]; conv_lhs => rw [hsplit]
    rw [List.drop_left' rfl]
  have hm : Obj.objMarks ((Obj.parse t).takeWhile Obj.isV).length (otherLines t) =
      Obj.objMarks (vertexLines t ++ pre).length (secs.flatMap Obj.secLines) := by
    conv_lhs => rw [h1]
    rw [Obj.objMarks_append _ h2, List.length_append]
    rfl
  have hobj : (Obj.objects (Obj.parse t)).map (fun o => (o.1, ((Obj.parse t).drop o.2.1).take o.2.2)) =
      Obj.emplaceAll (secs.map fun s => (firstWord s.1, s.2)) := by
    unfold Obj.objects
    simp only [hdrop]
    rw [hm, ← Obj.emplaceAll_map (fun q : ℕ × ℕ => ((Obj.parse t).drop q.1).take q.2), hres]
    rfl
  unfold Obj.read
  simp only
  rw [if_neg (show ¬ Obj.parse t = [] from hne)]
  unfold Obj.readPoints
  rw [show (Obj.parse t).takeWhile Obj.isV = vertexLines t from rfl]
  cases Out.mapM (fun l => Obj.line2pt rnd (List.tail l)) (vertexLines t) with
  | ub => rfl
  | thrown e => rfl
  | ok ps =>
    rw [Out.ok_bind, Out.ok_bind, Out.ok_bind, ← hobj, ← Obj.mapM_comp]
    rfl

/-- C26: the exact texts on which reading is undefined: the first vertex line that has not three numbers has four; or all have three, and,
among the first sections of their names, one is undefined and those whose names come before it in the order of the alphabet are fine. -/
theorem C26_exact (rnd : ℚ → ℚ) (t : Text) :
    Obj.read rnd t = .ub ↔
      (∃ a l b, vertexLines t = a ++ l :: b ∧ (∀ x ∈ a, (scanDecs rnd x.tail).length = 3) ∧ (scanDecs rnd l.tail).length = 4) ∨
      (∀ l ∈ vertexLines t, (scanDecs rnd l.tail).length = 3) ∧ ∃ secs, Sections t secs ∧ ∃ s, FirstNamed secs s ∧
        SectionUndefined rnd (vertexLines t).length s.2 ∧
        ∀ s', FirstNamed secs s' → firstWord s'.1 < firstWord s.1 → SectionFine rnd (vertexLines t).length s'.2 := by
  have hmem : ∀ (secs : List (Text × List Text)) (x : Text × List Text),
      x ∈ Obj.emplaceAll (secs.map fun s => (firstWord s.1, s.2)) ↔ ∃ s, FirstNamed secs s ∧ x = (firstWord s.1, s.2) := by
    intro secs x
    rw [mem_emplaceAll_iff]
    constructor
    · rintro ⟨a, b, e, h⟩
      obtain ⟨a', r, rfl, rfl, e2⟩ := List.map_eq_append_iff.1 e
      obtain ⟨s, b', rfl, rfl, rfl⟩ := List.map_eq_cons_iff.1 e2
      exact ⟨s, ⟨a', b', rfl, fun y hy => h _ (List.mem_map_of_mem hy)⟩, rfl⟩
    · rintro ⟨s, ⟨a, b, rfl, h⟩, rfl⟩
      refine ⟨a.map fun s => (firstWord s.1, s.2), b.map fun s => (firstWord s.1, s.2), by simp, ?_⟩
      intro y hy
      obtain ⟨z, hz, rfl⟩ := List.mem_map.1 hy
      exact h z hz
  have hmain : ∀ secs, Sections t secs → (Obj.read rnd t = .ub ↔
      (∃ a l b, vertexLines t = a ++ l :: b ∧ (∀ x ∈ a, (scanDecs rnd x.tail).length = 3) ∧ (scanDecs rnd l.tail).length = 4) ∨
      (∀ l ∈ vertexLines t, (scanDecs rnd l.tail).length = 3) ∧ ∃ s, FirstNamed secs s ∧
        SectionUndefined rnd (vertexLines t).length s.2 ∧
        ∀ s', FirstNamed secs s' → firstWord s'.1 < firstWord s.1 → SectionFine rnd (vertexLines t).length s'.2) := by
    intro secs hsec
    by_cases hne : objContent t = []
    · have e1 : vertexLines t = [] := by unfold vertexLines; rw [hne]; rfl
      have e2 : otherLines t = [] := by unfold otherLines; rw [hne]; rfl
      have : Obj.read rnd t = .thrown .outOfRange := by
        unfold Obj.read
        simp only
        rw [if_pos (show Obj.parse t = [] from hne)]
      rw [this]
      constructor
      · intro h; cases h
      · rintro (⟨a, l, b, h, -⟩ | ⟨-, s, ⟨a, b, hs, -⟩, -⟩)
        · rw [e1] at h; simp at h
        · obtain ⟨pre, h, -⟩ := hsec
          rw [e2, hs] at h
          simp at h
    · rw [read_sections hsec hne, Out.bind_eq_ub, readPoints_cases.1]
      apply or_congr Iff.rfl
      rw [← readPoints_cases.2]
      have hiff : ∀ ps, Out.mapM (fun l => Obj.line2pt rnd (List.tail l)) (vertexLines t) = .ok ps →
          (Out.mapM (Obj.readObj rnd (⟨0, 0, 0⟩ :: ps)) (Obj.emplaceAll (secs.map fun s => (firstWord s.1, s.2))) = .ub ↔
            ∃ s, FirstNamed secs s ∧ SectionUndefined rnd (vertexLines t).length s.2 ∧
            ∀ s', FirstNamed secs s' → firstWord s'.1 < firstWord s.1 → SectionFine rnd (vertexLines t).length s'.2) := by
        intro ps hps
        have hlen : ps.length = (vertexLines t).length := Out.mapM_length hps
        rw [mapM_sorted_ub (Obj.sorted_emplaceAll _), ← hlen]
        constructor
        · rintro ⟨x, hx, hu, hy⟩
          obtain ⟨s, hs, rfl⟩ := (hmem _ _).1 hx
          refine ⟨s, hs, (readObj_cases (o := (firstWord s.1, s.2))).1.1 hu, ?_⟩
          intro s' hs' hlt
          exact (readObj_cases (o := (firstWord s'.1, s'.2))).2.1 (hy (firstWord s'.1, s'.2) ((hmem _ _).2 ⟨s', hs', rfl⟩) hlt)
        · rintro ⟨s, hs, hu, hy⟩
          refine ⟨(firstWord s.1, s.2), (hmem _ _).2 ⟨s, hs, rfl⟩, readObj_cases.1.2 hu, ?_⟩
          intro y hym hlt
          obtain ⟨s', hs', rfl⟩ := (hmem _ _).1 hym
          exact readObj_cases.2.2 (hy s' hs' hlt)
      constructor
      · rintro ⟨ps, hps, h⟩
        exact ⟨⟨ps, hps⟩, (hiff ps hps).1 h⟩
      · rintro ⟨⟨ps, hps⟩, h⟩
        exact ⟨ps, hps, (hiff ps hps).2 h⟩
  constructor
  · intro h
    obtain ⟨secs, hsec⟩ := sections_exist t
    rcases (hmain secs hsec).1 h with h | ⟨h1, h2⟩
    · exact Or.inl h
    · exact Or.inr ⟨h1, secs, hsec, h2⟩
  · rintro (h | ⟨h1, secs, hsec, h2⟩)
    · obtain ⟨secs, hsec⟩ := sections_exist t
      exact (hmain secs hsec).2 (Or.inl h)
    · exact (hmain secs hsec).2 (Or.inr ⟨h1, h2⟩)

/-- Two objects: b has an index without vertex, a has a face of two vertices. The object a is read first although it comes second: the text is
refused, not undefined. Without the object a, it is undefined. -/
example (t u : Text) (v b1 b2 a1 a2 : Text) (hv : (scanDecs id v).length = 3) (hb : scanDecs id b2 = [1, 1, 2]) (ha : scanDecs id a2 = [1, 1])
    (nb : firstWord b1 = ['b']) (na : firstWord a1 = ['a'])
    (ht : objContent t = ['v' :: v, 'o' :: b1, 'f' :: b2, 'o' :: a1, 'f' :: a2]) (hu : objContent u = ['v' :: v, 'o' :: b1, 'f' :: b2]) :
    Obj.read id t ≠ .ub ∧ Obj.read id u = .ub := by
  have tv : vertexLines t = ['v' :: v] := by unfold vertexLines; rw [ht]; rfl
  have ot : otherLines t = ['o' :: b1, 'f' :: b2, 'o' :: a1, 'f' :: a2] := by unfold otherLines; rw [ht]; rfl
  have uv : vertexLines u = ['v' :: v] := by unfold vertexLines; rw [hu]; rfl
  have uo : otherLines u = ['o' :: b1, 'f' :: b2] := by unfold otherLines; rw [hu]; rfl
  have fb : FacetFine id ('f' :: b2) := by
    refine ⟨by simp [hb], ?_⟩
    intro q hq
    simp only [List.tail_cons, hb, List.mem_cons, List.not_mem_nil, or_false] at hq
    rcases hq with rfl | rfl | rfl <;> norm_num
  have ub : SectionUndefined id 1 ['f' :: b2] :=
    Or.inr ⟨by simpa using fb, 'f' :: b2, by simp, 2, by simp [hb], by norm_num⟩
  constructor
  · intro h
    rw [C26_exact, tv] at h
    rcases h with ⟨a, l, b, e, -, h4⟩ | ⟨-, secs, ⟨pre, h1, h2, h3⟩, s, hs, hun, hlt⟩
    · cases a with
      | nil => injection e with e1 e2; subst e1; simp [hv] at h4
      | cons x a => injection e with e1 e2; simp at e2
    · rw [ot] at h1
      have hpre : pre = [] := by
        cases pre with
        | nil => rfl
        | cons p pre =>
          rw [List.cons_append] at h1
          injection h1 with e1 e2
          exact absurd (by rw [← e1]; rfl) (h2 p (by simp))
      subst hpre
      rw [List.nil_append] at h1
      have hsecs : secs = [(b1, ['f' :: b2]), (a1, ['f' :: a2])] := by
        match secs, h1, h3 with
        | [], h1, _ => simp at h1
        | (x, l) :: secs, h1, h3 =>
          simp only [List.flatMap_cons, List.cons_append] at h1
          injection h1 with e1 e2
          injection e1 with _ e1
          subst e1
          match l, e2, h3 with
          | [], e2, _ =>
            rw [List.nil_append] at e2
            match secs, e2 with
            | [], e2 => simp at e2
            | (y, m) :: secs, e2 =>
              simp only [List.flatMap_cons, List.cons_append] at e2
              injection e2 with e3 _
              injection e3 with e3 _
              exact absurd e3 (by decide)
          | f :: l, e2, h3 =>
            rw [List.cons_append] at e2
            injection e2 with e3 e4
            subst e3
            match l, e4, h3 with
            | f' :: l, e4, h3 =>
              rw [List.cons_append] at e4
              injection e4 with e5 _
              exact absurd (by rw [← e5]; rfl) (h3 (b1, ('f' :: b2) :: f' :: l) (by simp) f' (by simp))
            | [], e4, h3 =>
              rw [List.nil_append] at e4
              match secs, e4, h3 with
              | [], e4, _ => simp at e4
              | (y, m) :: secs, e4, h3 =>
                simp only [List.flatMap_cons, List.cons_append] at e4
                injection e4 with e5 e6
                injection e5 with _ e5
                subst e5
                match m, e6, h3 with
                | [], e6, _ =>
                  rw [List.nil_append] at e6
                  match secs, e6 with
                  | [], e6 => simp at e6
                  | (z, m) :: secs, e6 =>
                    simp only [List.flatMap_cons, List.cons_append] at e6
                    injection e6 with e7 _
                    injection e7 with e7 _
                    exact absurd e7 (by decide)
                | g :: m, e6, _ =>
                  rw [List.cons_append] at e6
                  injection e6 with e7 e8
                  subst e7
                  have := List.append_eq_nil_iff.1 e8.symm
                  obtain ⟨rfl, hf⟩ := this
                  cases secs with
                  | nil => rfl
                  | cons z secs => simp at hf
      subst hsecs
      have hfa : ¬ FacetFine id ('f' :: a2) := by
        rintro ⟨h, -⟩; simp [ha] at h
      have hA : FirstNamed [(b1, ['f' :: b2]), (a1, ['f' :: a2])] (a1, ['f' :: a2]) :=
        ⟨[(b1, ['f' :: b2])], [], rfl, by simp [na, nb]⟩
      have hmem : s = (b1, ['f' :: b2]) ∨ s = (a1, ['f' :: a2]) := by
        obtain ⟨a, b, e, -⟩ := hs
        have : s ∈ a ++ s :: b := by simp
        rw [← e] at this
        simpa using this
      rcases hmem with rfl | rfl
      · have := hlt _ hA (by rw [na, nb]; decide)
        exact hfa (this _ (by simp)).1
      · rcases hun with ⟨a, l, b, e, -, ⟨q, hq, hc⟩⟩ | ⟨hf, -⟩
        · have hl : l = 'f' :: a2 := by
            have : l ∈ a ++ l :: b := by simp
            rw [← e] at this
            simpa using this
          subst hl
          simp only [List.tail_cons, ha, List.mem_cons, List.not_mem_nil, or_false] at hq
          rcases hq with rfl | rfl <;> norm_num at hc
        · exact hfa (hf _ (by simp))
  · rw [C26_exact, uv]
    right
    refine ⟨by simpa using hv, [(b1, ['f' :: b2])], ⟨[], by rw [uo]; rfl, by simp, by simp⟩, (b1, ['f' :: b2]), ⟨[], [], rfl, by simp⟩, ub, ?_⟩
    rintro s' ⟨a, b, e, -⟩ hlt
    have : s' ∈ a ++ s' :: b := by simp
    rw [← e] at this
    simp only [List.mem_singleton] at this
    subst this
    exact absurd hlt (lt_irrefl _)

end City.Props
