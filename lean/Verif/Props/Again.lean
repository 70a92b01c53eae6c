import Verif.Props.Visible
import Verif.Props.Convey
/-!
C116: converting a city before drawing it makes no difference: the drawings show the buildings of the first file.
-/
namespace City.Props
open City City.Spec

set_option linter.unusedSectionVars false

/-! ### The faces of a mesh, begun at other corners or run through in the other direction -/

section
variable {A : Type}

/-- The same cycle, in one direction or the other. -/
def Alike (l k : List A) : Prop := l ~r k ∨ l.reverse ~r k

theorem alike_perm {l k : List A} (h : Alike l k) : l.Perm k := by
  rcases h with h | h
  · exact h.perm
  · exact (List.reverse_perm _).symm.trans h.perm

theorem alike_mem {l k : List A} (h : Alike l k) (v : A) : v ∈ l ↔ v ∈ k := (alike_perm h).mem_iff

theorem alike_symm {l k : List A} (h : Alike l k) : Alike k l := by
  rcases h with h | h
  · exact .inl h.symm
  · right
    have := h.reverse
    rw [List.reverse_reverse] at this
    exact this.symm

theorem alike_map {B : Type} (f : A → B) {l k : List A} (h : Alike l k) : Alike (l.map f) (k.map f) := by
  rcases h with h | h
  · exact .inl (h.map f)
  · right
    rw [← List.map_reverse]
    exact h.map f

theorem rotated_filterMap {B : Type} (f : A → Option B) {l k : List A} (h : l ~r k) : l.filterMap f ~r k.filterMap f := by
  obtain ⟨n, rfl⟩ := h
  rw [List.rotate_eq_drop_append_take_mod, List.filterMap_append]
  conv_lhs => rw [← List.take_append_drop (n % l.length) l, List.filterMap_append]
  exact List.isRotated_append

theorem alike_filterMap {B : Type} (f : A → Option B) {l k : List A} (h : Alike l k) : Alike (l.filterMap f) (k.filterMap f) := by
  rcases h with h | h
  · exact .inl (rotated_filterMap f h)
  · right
    rw [← List.filterMap_reverse]
    exact rotated_filterMap f h

/-- Three corners in a row of the second list are three corners in a row of the first, in one direction or the other. -/
theorem alike_three {l k : List A} (h : Alike l k) {a b c : A} {t : List A} (e : (a :: b :: c :: t) ~r k) :
    (a :: b :: c :: t) ~r l ∨ (c :: b :: a :: t.reverse) ~r l := by
  rcases h with h | h
  · exact .inl (e.trans h.symm)
  · right
    have h1 := (e.trans h.symm).reverse
    rw [List.reverse_reverse] at h1
    refine List.IsRotated.trans ?_ h1
    rw [show (a :: b :: c :: t).reverse = t.reverse ++ [c, b, a] by simp]
    exact (List.isRotated_append (l := t.reverse) (l' := [c, b, a])).symm

end

section
variable {K : Type} [Field K] [LinearOrder K] [IsStrictOrderedRing K] [FloorRing K]
variable {C : Cgal K} {Ok : Pwh K → Prop} {Good : C.PSet → Prop} {Gen : V2 K → Prop}

theorem alike_line {l k : List (V3 K)} (h : Alike l k) : SeenAsLine l ↔ SeenAsLine k := by
  unfold SeenAsLine
  simp only [alike_mem h]

theorem alike_side (L : Lawful C Ok Good Gen) (hrev : ∀ (a : Poly K) p, C.side a.reverse p = C.side a p) {l k : Poly K} (h : Alike l k) (q : V2 K) : C.side l q = C.side k q := by
  rcases h with h | h
  · exact L.rotation _ _ h q
  · rw [← hrev l q]
    exact L.rotation _ _ h q

theorem alike_over (L : Lawful C Ok Good Gen) (hrev : ∀ (a : Poly K) p, C.side a.reverse p = C.side a p) {l k : List (V3 K)} (h : Alike l k) (q : V2 K) (z : K) :
    Over C l q z ↔ Over C k q z := by
  unfold Over
  rw [alike_line h, alike_side L hrev (alike_map ground h) q]
  simp only [alike_mem h]

theorem alike_shadow {l k : List (V3 K)} (h : Alike l k) {r : Poly K} (hr : ShadowRing k r) : ShadowRing l r := by
  have h' := alike_map ground h
  rcases h' with h' | h' <;> rcases hr with hr | hr
  · exact .inl (hr.trans h'.symm)
  · exact .inr (hr.trans h'.reverse.symm)
  · exact .inr (hr.trans h'.symm)
  · left
    refine hr.trans ?_
    have := h'.reverse
    rw [List.reverse_reverse] at this
    exact this.symm

theorem alike_plain {l k : List (V3 K)} (h : Alike l k) (p : PlainRoof C Ok l) : PlainRoof C Ok k := by
  refine ⟨by rw [← (alike_perm h).length_eq]; exact p.three, ?_, fun a b c t e => ?_, fun r hr => p.simple r (alike_shadow h hr), fun r hr => p.ok r (alike_shadow h hr)⟩
  · obtain ⟨n, h1, h2⟩ := p.flat
    exact ⟨n, h1, fun v hv => h2 v ((alike_mem h v).2 hv)⟩
  · rcases alike_three (alike_map ground h) e with e | e
    · exact p.sharp a b c t e
    · intro k
      refine p.sharp c b a t.reverse e ?_
      unfold InLine at *
      linear_combination -k

theorem alike_middles (L : Lawful C Ok Good Gen) (hrev : ∀ (a : Poly K) p, C.side a.reverse p = C.side a p) {l k : List (V3 K)} (h : Alike l k) (p : MiddlesInside C Gen l) :
    MiddlesInside C Gen k := by
  intro a b c t e
  rw [← alike_side L hrev (alike_map ground h)]
  rcases alike_three (alike_map ground h) e with e | e
  · exact p a b c t e
  · have := p c b a t.reverse e
    rwa [show c.x + b.x + a.x = a.x + b.x + c.x by ring, show c.y + b.y + a.y = a.y + b.y + c.y by ring] at this

theorem alike_steep {l k : List (V3 K)} (h : Alike l k) (p : NotSteep l) : NotSteep k := by
  intro a b c t e
  rcases alike_three (alike_map ground h) e with e | e
  · exact p a b c t e
  · have := p c b a t.reverse e
    rwa [← abs_neg, show -((b.x - c.x) * (a.y - c.y) - (b.y - c.y) * (a.x - c.x)) = (b.x - a.x) * (c.y - a.y) - (b.y - a.y) * (c.x - a.x) by ring] at this

/-- The faces of the two lists are alike, one by one. -/
abbrev AlikeAll (fs gs : List (List (V3 K))) : Prop := List.Forall₂ Alike fs gs

theorem alikeAll_symm {fs gs : List (List (V3 K))} (h : AlikeAll fs gs) : AlikeAll gs fs := by
  induction h with
  | nil => exact .nil
  | cons e _ ih => exact .cons (alike_symm e) ih

theorem alike_extent {fs gs : List (List (V3 K))} (h : AlikeAll fs gs) {B : Box2 K} (e : Extent fs B) : Extent gs B := by
  have go : ∀ {P : V3 K → Prop}, (∃ l ∈ fs, ¬ SeenAsLine l ∧ ∃ v ∈ l, P v) → ∃ l ∈ gs, ¬ SeenAsLine l ∧ ∃ v ∈ l, P v := by
    rintro P ⟨l, hl, h1, v, hv, h2⟩
    obtain ⟨k, hk, a⟩ := forall₂_mem_left h l hl
    exact ⟨k, hk, fun c => h1 ((alike_line a).2 c), v, (alike_mem a v).1 hv, h2⟩
  refine ⟨fun k hk h1 v hv => ?_, go e.2.1, go e.2.2.1, go e.2.2.2.1, go e.2.2.2.2⟩
  obtain ⟨l, hl, a⟩ := forall₂_mem_right h k hk
  exact e.1 l hl (fun c => h1 ((alike_line a).1 c)) v ((alike_mem a v).2 hv)

theorem alike_exists (L : Lawful C Ok Good Gen) (hrev : ∀ (a : Poly K) p, C.side a.reverse p = C.side a p) {fs gs : List (List (V3 K))} (h : AlikeAll fs gs) (q : V2 K) (z : K) :
    (∃ l ∈ fs, Over C l q z) ↔ ∃ l ∈ gs, Over C l q z := by
  constructor
  · rintro ⟨l, hl, o⟩
    obtain ⟨k, hk, a⟩ := forall₂_mem_left h l hl
    exact ⟨k, hk, (alike_over L hrev a q z).1 o⟩
  · rintro ⟨k, hk, o⟩
    obtain ⟨l, hl, a⟩ := forall₂_mem_right h k hk
    exact ⟨l, hl, (alike_over L hrev a q z).2 o⟩

theorem top_iff {fs : List (List (V3 K))} {q : V2 K} {z : K} : TopAt C fs q z ↔ (∃ l ∈ fs, Over C l q z) ∧ ∀ z', (∃ l ∈ fs, Over C l q z') → z' ≤ z :=
  ⟨fun h => ⟨h.1, fun z' ⟨l, hl, o⟩ => h.2 l hl z' o⟩, fun h => ⟨h.1, fun l hl z' o => h.2 z' ⟨l, hl, o⟩⟩⟩

theorem alike_top (L : Lawful C Ok Good Gen) (hrev : ∀ (a : Poly K) p, C.side a.reverse p = C.side a p) {fs gs : List (List (V3 K))} (h : AlikeAll fs gs) (q : V2 K) (z : K) :
    TopAt C fs q z ↔ TopAt C gs q z := by
  rw [top_iff, top_iff]
  simp only [alike_exists L hrev h]

theorem alike_heights (L : Lawful C Ok Good Gen) (hrev : ∀ (a : Poly K) p, C.side a.reverse p = C.side a p) {fs gs : List (List (V3 K))} (h : AlikeAll fs gs) {f : V2 K → Out K}
    (k : HeightsOf C Gen gs f) : HeightsOf C Gen fs f := by
  have sw : ∀ (l : List (List (V3 K))) (q : V2 K), (∃ a ∈ l, ∃ z, Over C a q z) ↔ ∃ z, ∃ a ∈ l, Over C a q z := fun l q =>
    ⟨fun ⟨a, ha, z, o⟩ => ⟨z, a, ha, o⟩, fun ⟨z, a, ha, o⟩ => ⟨a, ha, z, o⟩⟩
  intro q hq
  have := k q hq
  rw [sw] at this ⊢
  simp only [alike_exists L hrev h, alike_top L hrev h]
  exact this


/-! ### Images -/

theorem rest_unique {a p r s : K} (hr : RestOf a p r) (hs : RestOf a p s) : r = s := by
  obtain ⟨r1, r2, i, r3⟩ := hr
  obtain ⟨s1, s2, j, s3⟩ := hs
  have hp : 0 < p := lt_of_le_of_lt r1 r2
  have e : ((i - j : ℤ) : K) * p = s - r := by
    push_cast
    linear_combination s3 - r3
  have l1 : (-1 : K) < ((i - j : ℤ) : K) := by
    by_contra hc
    have := mul_le_mul_of_nonneg_right (not_lt.1 hc) hp.le
    rw [e] at this
    linarith
  have l2 : ((i - j : ℤ) : K) < 1 := by
    by_contra hc
    have := mul_le_mul_of_nonneg_right (not_lt.1 hc) hp.le
    rw [e] at this
    linarith
  have l1' : (-1 : ℤ) < i - j := by exact_mod_cast l1
  have l2' : i - j < (1 : ℤ) := by exact_mod_cast l2
  have : i - j = 0 := by omega
  rw [this] at e
  simp only [Int.cast_zero, zero_mul] at e
  linarith

theorem corner_unique {l : List (V2 K)} {x y x' y' : K} (h : LeftTop l x y) (h' : LeftTop l x' y') : x = x' ∧ y = y' := by
  obtain ⟨⟨a1, v, hv, a2⟩, b1, w, hw, b2⟩ := h
  obtain ⟨⟨c1, v', hv', c2⟩, d1, w', hw', d2⟩ := h'
  exact ⟨le_antisymm (c2 ▸ a1 v' hv') (a2 ▸ c1 v hv), le_antisymm (b2 ▸ d1 w hw) (d2 ▸ b1 w' hw')⟩

theorem displaced_unique {left top p : K} {l k : List (V3 K)} {d e : V2 K} (h : Alike l k) (hd : Displaced left top p (l.map ground) d) (he : Displaced left top p (k.map ground) e) : d = e := by
  obtain ⟨x, y, a1, a2, a3⟩ := hd
  obtain ⟨x', y', b1, b2, b3⟩ := he
  have : LeftTop (l.map ground) x' y' := by
    unfold LeftTop at *
    simp only [alike_mem (alike_map ground h)]
    exact b1
  obtain ⟨rfl, rfl⟩ := corner_unique a1 this
  exact V2.ext (rest_unique a2 b2) (rest_unique a3 b3)

theorem alike_displaced {left top p : K} {l k : List (V3 K)} {d : V2 K} (h : Alike l k) (hd : Displaced left top p (l.map ground) d) : Displaced left top p (k.map ground) d := by
  obtain ⟨x, y, a1, a2, a3⟩ := hd
  refine ⟨x, y, ?_, a2, a3⟩
  unfold LeftTop at *
  simp only [← alike_mem (alike_map ground h)]
  exact a1

theorem alike_within (L : Lawful C Ok Good Gen) (hrev : ∀ (a : Poly K) p, C.side a.reverse p = C.side a p) {l k : List (V3 K)} (h : Alike l k) (sq : Pwh K) (z : K) :
    HeightWithin C Gen sq l z ↔ HeightWithin C Gen sq k z := by
  unfold HeightWithin
  simp only [alike_over L hrev h]

theorem alike_above (L : Lawful C Ok Good Gen) (hrev : ∀ (a : Poly K) p, C.side a.reverse p = C.side a p) {l k : List (V3 K)} (h : Alike l k) (sq : Pwh K) :
    AboveSquare C Gen sq l ↔ AboveSquare C Gen sq k := by
  unfold AboveSquare
  simp only [alike_over L hrev h]

theorem alike_shows (L : Lawful C Ok Good Gen) (hrev : ∀ (a : Poly K) p, C.side a.reverse p = C.side a p) {fs gs : List (List (V3 K))} (h : AlikeAll fs gs) {ref : V3 K} {p : K} {r : Raster K}
    (k : ShowsFaces C Ok Gen gs ref p (UpLeft p) r) : ShowsFaces C Ok Gen fs ref p (UpLeft p) r := by
  classical
  obtain ⟨B, d, h1, h2, h3, h4, h5, h6, h7⟩ := k
  have ex : ∀ l ∈ fs, ¬ SeenAsLine l → ∃ e : V2 K, Displaced B.xmin B.ymax p (l.map ground) e := by
    intro l hl hs
    obtain ⟨g, hg, a⟩ := forall₂_mem_left h l hl
    exact ⟨d g, alike_displaced (alike_symm a) (h2 g hg fun c => hs ((alike_line a).2 c))⟩
  refine ⟨B, fun l => if e : ∃ e : V2 K, Displaced B.xmin B.ymax p (l.map ground) e then e.choose else ⟨0, 0⟩, alike_extent (alikeAll_symm h) h1, ?_, h3, h4, h5, h6, ?_⟩
  · intro l hl hs
    have e := ex l hl hs
    simp only [dif_pos e]
    exact e.choose_spec
  generalize hd' : (fun l : List (V3 K) => if e : ∃ e : V2 K, Displaced B.xmin B.ymax p (l.map ground) e then e.choose else ⟨0, 0⟩) = d'
  have same : ∀ l ∈ fs, ∀ g ∈ gs, Alike l g → ¬ SeenAsLine l → d' l = d g := by
    intro l hl g hg a hs
    have e := ex l hl hs
    refine displaced_unique a ?_ (h2 g hg fun c => hs ((alike_line a).2 c))
    rw [← hd']
    simp only [dif_pos e]
    exact e.choose_spec
  intro i hi j hj hok
  obtain ⟨n, v, e1, e2, zs, e3, e4, e5⟩ := h7 i hi j hj fun g hg hs => by
    obtain ⟨l, hl, a⟩ := forall₂_mem_right h g hg
    have hs' : ¬ SeenAsLine l := fun c => hs ((alike_line a).1 c)
    have := hok l hl hs'
    rwa [same l hl g hg a hs'] at this
  refine ⟨n, v, e1, e2, zs, ?_, e4, e5⟩
  clear h1 h2 h3 h4 h5 h6 h7 ex hd' hok e1 e2 e4 e5 hi hj
  induction h generalizing zs with
  | nil =>
    rw [List.filter_nil] at e3 ⊢
    cases e3
    exact .nil
  | @cons l g fs gs a rest ih =>
    have ih := fun zs e3 => ih (fun l hl g hg => same l (List.mem_cons_of_mem _ hl) g (List.mem_cons_of_mem _ hg)) zs e3
    rw [List.filter_cons] at e3 ⊢
    by_cases hs : SeenAsLine l
    · have n1 : ∀ sq, ¬ AboveSquare C Gen sq l := fun sq ⟨q, z, _, _, o⟩ => o.1 hs
      have n2 : ∀ sq, ¬ AboveSquare C Gen sq g := fun sq ⟨q, z, _, _, o⟩ => o.1 ((alike_line a).1 hs)
      rw [if_neg (by simpa using n2 _)] at e3
      rw [if_neg (by simpa using n1 _)]
      exact ih zs e3
    · have e := same l List.mem_cons_self g List.mem_cons_self a hs
      by_cases ha : AboveSquare C Gen (cell (B.xmin + (d g).x) (B.ymax - (d g).y) p i j) g
      · rw [if_pos (by simpa using ha)] at e3
        rw [if_pos (by rw [e]; simpa using (alike_above L hrev a _).2 ha)]
        cases e3 with
        | cons w t => exact .cons (by rw [e]; exact (alike_within L hrev a _ _).2 w) (ih _ t)
      · rw [if_neg (by simpa using ha)] at e3
        rw [if_neg (by rw [e]; simpa using fun c => ha ((alike_above L hrev a _).1 c))]
        exact ih zs e3


theorem displaced_one {left top p : K} {l : List (V2 K)} {d e : V2 K} (hd : Displaced left top p l d) (he : Displaced left top p l e) : d = e := by
  obtain ⟨x, y, a1, a2, a3⟩ := hd
  obtain ⟨x', y', b1, b2, b3⟩ := he
  obtain ⟨rfl, rfl⟩ := corner_unique a1 b1
  exact V2.ext (rest_unique a2 b2) (rest_unique a3 b3)

theorem alike_visible (L : Lawful C Ok Good Gen) (hrev : ∀ (a : Poly K) p, C.side a.reverse p = C.side a p) {fs gs : List (List (V3 K))} (h : AlikeAll fs gs) {ref : V3 K} {p : K} {r : Raster K}
    (k : ShowsVisible C Ok Gen gs ref p r) : ShowsVisible C Ok Gen fs ref p r := by
  classical
  obtain ⟨B, parts, d, h1, h2, h3, h4, h5, h6, h7, h8⟩ := k
  let φ : FacePart K → FacePart K := fun a => (a.1, if e : ∃ l ∈ fs, Alike l a.2 then e.choose else a.2)
  have hφ : ∀ a ∈ parts, (φ a).2 ∈ fs ∧ Alike (φ a).2 a.2 := by
    intro a ha
    have e : ∃ l ∈ fs, Alike l a.2 := forall₂_mem_right h a.2 (h2.face a ha).1
    simp only [φ, dif_pos e]
    exact ⟨e.choose_spec.1, e.choose_spec.2⟩
  let d' : FacePart K → V2 K := fun b => if e : ∃ e : V2 K, Displaced B.xmin B.ymax p b.1.outer e then e.choose else ⟨0, 0⟩
  have hd : ∀ a ∈ parts, d' (φ a) = d a := by
    intro a ha
    have e : ∃ e : V2 K, Displaced B.xmin B.ymax p (φ a).1.outer e := ⟨d a, h3 a ha⟩
    simp only [d', dif_pos e]
    exact displaced_one e.choose_spec (h3 a ha)
  have above : ∀ (a : FacePart K) (sq : Pwh K), PartAbove C Gen sq (φ a) ↔ PartAbove C Gen sq a := fun _ _ => Iff.rfl
  have height : ∀ a ∈ parts, ∀ (sq : Pwh K) (z : K), PartHeight C Gen sq (φ a) z ↔ PartHeight C Gen sq a z := by
    intro a ha sq z
    unfold PartHeight
    simp only [alike_over L hrev (hφ a ha).2]
    exact Iff.rfl
  refine ⟨B, parts.map φ, d', alike_extent (alikeAll_symm h) h1, ⟨?_, ?_, ?_, ?_⟩, ?_, h4, h5, h6, h7, fun hn i hi j hj hok => ?_⟩
  · intro b hb
    obtain ⟨a, ha, rfl⟩ := List.mem_map.1 hb
    exact ⟨(hφ a ha).1, (h2.face a ha).2⟩
  · intro b hb q hq hin
    obtain ⟨a, ha, rfl⟩ := List.mem_map.1 hb
    obtain ⟨z, z1, z2⟩ := h2.top a ha q hq hin
    exact ⟨z, (alike_over L hrev (hφ a ha).2 q z).2 z1, (alike_top L hrev h q z).2 z2⟩
  · exact List.pairwise_map.2 h2.apart
  · rintro q hq ⟨l, hl, z, o⟩
    obtain ⟨g, hg, a⟩ := forall₂_mem_left h l hl
    obtain ⟨b, hb, hb2⟩ := h2.all q hq ⟨g, hg, z, (alike_over L hrev a q z).1 o⟩
    exact ⟨φ b, List.mem_map_of_mem hb, hb2⟩
  · intro b hb
    obtain ⟨a, ha, rfl⟩ := List.mem_map.1 hb
    rw [hd a ha]
    exact h3 a ha
  · obtain ⟨n, v, e1, e2, zs, e3, e4, e5⟩ := h8 (by simpa using hn) i hi j hj fun a ha => by
      have := hok (φ a) (List.mem_map_of_mem ha)
      rwa [hd a ha] at this
    refine ⟨n, v, e1, e2, zs, ?_, e4, e5⟩
    rw [List.filter_map, List.forall₂_map_left_iff]
    have e : parts.filter ((fun a => decide (PartAbove C Gen (cell (B.xmin + (d' a).x) (B.ymax - (d' a).y) p i j) a)) ∘ φ) =
        parts.filter (fun a => decide (PartAbove C Gen (cell (B.xmin + (d a).x) (B.ymax - (d a).y) p i j) a)) := by
      refine List.filter_congr fun a ha => ?_
      simp only [Function.comp, hd a ha, above]
    rw [e]
    refine List.forall₂_iff_zip.2 ⟨e3.length_eq, fun {a z} hz => ?_⟩
    have ha : a ∈ parts := (List.mem_filter.1 (List.of_mem_zip hz).1).1
    rw [hd a ha, height a ha]
    exact List.forall₂_iff_zip.1 e3 |>.2 hz

/-! ### Meshes -/

theorem corners_turned {S : Surf K} {f : Nat} {p q : List Nat} (h : CornersOf S f p) (e : p ~r q) : CornersOf S f q := by
  obtain ⟨l, h1, h2⟩ := h
  obtain ⟨n, rfl⟩ := e
  refine ⟨l.rotate n, ⟨?_, ?_, ?_, ?_⟩, ?_⟩
  · intro c
    exact h1.ne (List.rotate_eq_nil_iff.1 c)
  · exact List.nodup_rotate.2 h1.nodup
  · intro x
    rw [List.mem_rotate]
    exact h1.mem x
  · intro e he
    exact h1.order e ((mem_boundary_rotated ⟨n, rfl⟩ e).2 he)
  · rw [List.rotate_eq_drop_append_take_mod, List.rotate_eq_drop_append_take_mod, h2.length_eq]
    exact List.rel_append (List.forall₂_drop _ h2) (List.forall₂_take _ h2)

theorem polygonMesh_turned {pts : List (V3 K)} {polys polys' : List (List Nat)} (h : PolygonMesh pts polys)
    (k : List.Forall₂ (fun p q => p ~r q) polys polys' ∨ List.Forall₂ (fun p q => p.reverse ~r q) polys polys') : PolygonMesh pts polys' := by
  have go : ∀ {S : Surf K} {a b : List (List Nat)} {fs : List Nat}, List.Forall₂ (CornersOf S) fs a → List.Forall₂ (fun p q => p ~r q) a b → List.Forall₂ (CornersOf S) fs b := by
    intro S a b fs h1 h2
    induction h1 generalizing b with
    | nil => cases h2; exact .nil
    | cons e _ ih => cases h2 with | cons e' t => exact .cons (corners_turned e e') (ih t)
  obtain ⟨S, R⟩ := h
  rcases k with k | k
  · exact ⟨S, represents_rotate R (go R.facets k)⟩
  · have R' := reverse_represents R
    exact ⟨S.reverseFaces, represents_rotate R' (go R'.facets (by rw [List.forall₂_map_left_iff]; exact k))⟩

theorem turned_shapes {m r : Mesh} (h : Turned m r) (emb : V3 ℚ → V3 K) :
    AlikeAll (faceShapes (m.points.map emb) (m.faces.map Face.points)) (faceShapes (r.points.map emb) (r.faces.map Face.points)) := by
  unfold faceShapes
  rw [h.points, AlikeAll, List.forall₂_map_left_iff, List.forall₂_map_right_iff, List.forall₂_map_left_iff, List.forall₂_map_right_iff]
  rcases h.faces with k | k
  · exact k.imp fun _ _ e => alike_filterMap _ (.inl e)
  · exact k.imp fun _ _ e => alike_filterMap _ (.inr e)

theorem turned_surface {m r : Mesh} (h : Turned m r) (emb : V3 ℚ → V3 K) (k : PolygonMesh (m.points.map emb) (m.faces.map Face.points)) :
    PolygonMesh (r.points.map emb) (r.faces.map Face.points) := by
  rw [h.points]
  refine polygonMesh_turned k ?_
  simp only [List.forall₂_map_left_iff, List.forall₂_map_right_iff]
  exact h.faces

theorem drawable_turned (L : Lawful C Ok Good Gen) (hrev : ∀ (a : Poly K) p, C.side a.reverse p = C.side a p) {m r : Mesh} (h : Turned m r) {emb : V3 ℚ → V3 K}
    (k : Drawable C Ok Gen emb m) : Drawable C Ok Gen emb r := by
  have a := turned_shapes h emb
  refine ⟨turned_surface h emb k.surface, fun g hg => ?_, ?_⟩
  · obtain ⟨l, hl, e⟩ := forall₂_mem_right a g hg
    rcases k.faces l hl with c | ⟨c, c'⟩
    · exact .inl ((alike_line e).1 c)
    · exact .inr ⟨alike_plain e c, alike_middles L hrev e c'⟩
  · refine pairwise_match a (fun l g l' g' e e' c q hq z z' o o' => ?_) k.order
    exact c q hq z z' ((alike_over L hrev e q z).2 o) ((alike_over L hrev e' q z').2 o')

theorem roof_turned {m r : Mesh} (h : Turned m r) {emb : V3 ℚ → V3 K} (k : ∃ l ∈ faceShapes (m.points.map emb) (m.faces.map Face.points), ¬ SeenAsLine l) :
    ∃ l ∈ faceShapes (r.points.map emb) (r.faces.map Face.points), ¬ SeenAsLine l := by
  obtain ⟨l, hl, hs⟩ := k
  obtain ⟨g, hg, e⟩ := forall₂_mem_left (turned_shapes h emb) l hl
  exact ⟨g, hg, fun c => hs ((alike_line e).2 c)⟩

theorem mappable_turned (L : Lawful C Ok Good Gen) (hrev : ∀ (a : Poly K) p, C.side a.reverse p = C.side a p) {m r : Mesh} (h : Turned m r) {emb : V3 ℚ → V3 K} {p : K}
    (k : Mappable C Ok Gen emb p m) : Mappable C Ok Gen emb p r := by
  have a := turned_shapes h emb
  refine ⟨turned_surface h emb k.surface, fun g hg => ?_, ?_, roof_turned h k.roof, by rw [turned_length h]; exact k.few, fun B hB => k.fits B (alike_extent (alikeAll_symm a) hB)⟩
  · obtain ⟨l, hl, e⟩ := forall₂_mem_right a g hg
    rcases k.faces l hl with c | ⟨c, c'⟩
    · exact .inl ((alike_line e).1 c)
    · exact .inr ⟨alike_plain e c, alike_steep e c'⟩
  · refine pairwise_match a (fun l g l' g' e e' c q hq z z' o => ?_) k.apart
    exact c q hq z z' ⟨(alike_over L hrev e q z).2 o.1, (alike_over L hrev e' q z').2 o.2⟩

theorem picturable_turned (L : Lawful C Ok Good Gen) (hrev : ∀ (a : Poly K) p, C.side a.reverse p = C.side a p) {m r : Mesh} (h : Turned m r) {emb : V3 ℚ → V3 K} {p : K}
    (k : Picturable C Ok Gen emb p m) : Picturable C Ok Gen emb p r := by
  have a := turned_shapes h emb
  refine ⟨drawable_turned L hrev h k.drawable, fun g hg hs => ?_, roof_turned h k.roof, fun B hB => k.fits B (alike_extent (alikeAll_symm a) hB)⟩
  obtain ⟨l, hl, e⟩ := forall₂_mem_right a g hg
  exact alike_steep e (k.gentle l hl fun c => hs ((alike_line e).1 c))


/-! ### The two programs one after the other -/

variable {F : Type} {T : Toolbox (Out (UNode K)) F K} {lib : SoupLib K} {emb : V3 ℚ → V3 K} {rnd : V3 K → V3 ℚ}

theorem slash_split (o : Text) : ∃ root n, splitSlash o = root ++ [n] := by
  have : splitSlash o ≠ [] := by
    intro e
    cases o with
    | nil => cases e
    | cons a t =>
      unfold splitSlash at e
      split at e
      · cases e
      · split at e <;> cases e
  exact ⟨_, _, (List.dropLast_append_getLast this).symm⟩

/-- The directory made by cityformat, as orthoproject reads it: the meshes of the first file, turned. -/
theorem converted_input (U : UsesNodes T lib emb) (B : NodesBack T emb rnd) (hL : SoupLaw lib) (hlist : Lists T) (args args' : Args) (fs : Fs) (t x o : Text) (ms : List Mesh)
    (ha : AsksConversion args t "OBJ".toList o "OFF".toList) (hext : NamedLike (splitSlash t) "obj".toList) (hfile : fs (splitSlash t) = some (.file x))
    (hread : Obj.read T.rnd x = .ok ms) (hd : FreshDirectory fs (splitSlash o)) (hm : ∀ m ∈ ms, Convertible T.rnd emb m) (hn : (ms.map Mesh.name).Nodup)
    (hscene : Given args' "<scene>" o) (hfmt : Given args' "--input-format" "OFF".toList) (hprune : Switch args' "--prune" false) (hterrain : Switch args' "--terrain" false) :
    ∃ fs' bs tr, formatMain T args fs = (.ok 0, fs') ∧ InputIs T args' fs' o false (Scene.make T.ops bs tr ⟨0, 0, 0⟩ 2154) ∧ (bs.map Mesh.name).Nodup ∧
      (∀ m ∈ ms, m.name ≠ "terrain".toList → ∃ r ∈ bs, Turned m r ∧ r.faces = (T.ops.back (T.ops.node m ⟨0, 0, 0⟩ 2154)).faces) ∧ (∀ r ∈ bs, ∃ m ∈ ms, m.name ≠ "terrain".toList ∧ Turned m r) ∧
      ∀ a names, (splitSlash o).getLast? ≠ some a → Ready fs ((splitSlash o).dropLast ++ [a]) names → Ready fs' ((splitSlash o).dropLast ++ [a]) names := by
  obtain ⟨fs', tr, h1, hex, h2, hct, h3, hlen, h4⟩ := first_run U B hL args fs t x o ms ha hext hfile hread hd hm hn
  have same : ∀ q, ¬ Within (splitSlash o) q → fs' q = fs q := by
    intro q hq
    by_contra hne
    obtain ⟨t', o₁, f', e1, e2, e3, -, e4⟩ := C67_format_confined T args fs q (by rw [h1]; exact hne)
    rcases e4 with ⟨e4, -⟩ | e4
    · have := ha.graphs
      unfold Asked at e4
      unfold Switch at this
      rw [e4] at this
      simp at this
    · have := ha.path
      unfold Given at this
      rw [e2] at this
      cases this
      exact hq e4
  obtain ⟨bs, r, l, k1, k2, k3⟩ := h4 _ readMode (by unfold OpenedRead; decide) (hlist fs' _ hex)
  have hin : InputIs T args' fs' o false (Scene.make T.ops bs r ⟨0, 0, 0⟩ 2154) :=
    ⟨hscene, hterrain, "OFF".toList, .off, _, false, hfmt, by rfl, k1, hprune, by simp, fun _ => rfl⟩
  have k4 : List.Forall₂ (fun m r => Turned m r ∧ r.faces = (T.ops.back (T.ops.node m ⟨0, 0, 0⟩ 2154)).faces) l bs := by
    have hlen := k3.length_eq
    simp only [List.length_append, List.length_cons, List.length_nil, Nat.add_right_cancel_iff] at hlen
    have t1 := List.forall₂_take l.length k3
    rw [List.take_left, hlen, List.take_left] at t1
    exact t1.imp fun _ _ h => h.1
  have inl : ∀ m, m ∈ l ↔ m ∈ ms ∧ m.name ≠ "terrain".toList := by
    intro m
    rw [k2.mem_iff, List.mem_filter]
    simp
  refine ⟨fs', bs, r, h1, hin, ?_, ?_, ?_, ?_⟩
  · rw [(turned_points (k4.imp fun _ _ h => h.1)).2, (k2.map _).nodup_iff]
    exact hn.sublist (List.filter_sublist.map _)
  · intro m hm hne
    exact forall₂_mem_left k4 m ((inl m).2 ⟨hm, hne⟩)
  · intro r hr
    obtain ⟨m, hm, k⟩ := forall₂_mem_right k4 r hr
    exact ⟨m, ((inl m).1 hm).1, ((inl m).1 hm).2, k.1⟩
  · intro a names hne hr
    obtain ⟨root, n, e⟩ := slash_split o
    rw [e, List.dropLast_concat] at hr ⊢
    rw [e, List.getLast?_concat] at hne
    refine ready_frame (fun q hq => same q ?_) hr
    rw [e]
    rintro ⟨z, rfl⟩
    rcases hq with hq | ⟨w, hq⟩
    · have := congrArg List.length hq
      simp only [List.length_append, List.length_cons] at this
      omega
    · rw [List.append_assoc] at hq
      exact hne (congrArg some (List.cons.inj (List.append_cancel_left hq)).1)

/-- C116, the part that holds, for the vector files: convert an OBJ file with cityformat to a directory of OFF files, and draw that with orthoproject: the vector file of every building holds a
footprint with the heights of the mesh in the OBJ file. Missing: straight angles and other orders of the faces, as in C107. -/
theorem C116_heights_partial (U : UsesNodes T lib emb) (B : NodesBack T emb rnd) (hL : SoupLaw lib) (hlist : Lists T)
    {Ok : Pwh K → Prop} {Good : T.C.PSet → Prop} {Gen : V2 K → Prop} (hC : Lawful T.C Ok Good Gen) (hrev : ∀ (a : Poly K) p, T.C.side a.reverse p = T.C.side a p)
    (args args' : Args) (fs : Fs) (t x o : Text) (la : Bool) (ms : List Mesh)
    (ha : AsksConversion args t "OBJ".toList o "OFF".toList) (hext : NamedLike (splitSlash t) "obj".toList) (hfile : fs (splitSlash t) = some (.file x))
    (hread : Obj.read T.rnd x = .ok ms) (hd : FreshDirectory fs (splitSlash o)) (hm : ∀ m ∈ ms, Convertible T.rnd emb m) (hn : (ms.map Mesh.name).Nodup)
    (hscene : Given args' "<scene>" o) (hfmt : Given args' "--input-format" "OFF".toList) (hprune : Switch args' "--prune" false) (hterrain : Switch args' "--terrain" false)
    (ha' : AsksVectors args' la) (hb : ∀ m ∈ ms, m.name ≠ "terrain".toList → Drawable T.C Ok Gen emb m) (hv : (splitSlash o).getLast? ≠ some "vectors".toList)
    (hr : Ready fs ((splitSlash o).dropLast ++ ["vectors".toList]) (ms.flatMap fun m => [m.name ++ ".shp".toList, m.name ++ ".txt".toList])) :
    ∃ fs' fs'', formatMain T args fs = (.ok 0, fs') ∧ orthoMain T args' fs' = (.ok 0, fs'') ∧ ∀ m ∈ ms, m.name ≠ "terrain".toList → ∃ fp : FootPrint K, fp.name = m.name ∧
      fp.ref = emb ⟨0, 0, 0⟩ ∧ fp.epsg = 2154 ∧ HeightsOf T.C Gen (faceShapes (m.points.map emb) (m.faces.map Face.points)) (fp.brick.height T.C) ∧
      fs'' ((splitSlash o).dropLast ++ ["vectors".toList, m.name ++ ".shp".toList]) = some (.file (T.G.shp (fp.toOgr T.C la))) := by
  obtain ⟨fs', bs, tr, h1, h2, h3, h4, h5, h6⟩ := converted_input U B hL hlist args args' fs t x o ms ha hext hfile hread hd hm hn hscene hfmt hprune hterrain
  obtain ⟨fs'', k1, k2⟩ := C107_scene_partial U hC hrev hL args' fs' o la bs tr ⟨0, 0, 0⟩ 2154 h2 ha' (fun r hr => by
      obtain ⟨m, m1, m2, m3⟩ := h5 r hr
      exact drawable_turned hC hrev m3 (hb m m1 m2)) h3 (fun r hr => by
      obtain ⟨m, m1, m2, m3⟩ := h5 r hr
      rw [m3.name]
      exact (hm m m1).file.2.1) (h6 _ _ hv ⟨hr.dir_ok, fun n hn' => hr.no_dir n (by
      obtain ⟨r, hr, h⟩ := List.mem_flatMap.1 hn'
      obtain ⟨m, m1, m2, m3⟩ := h5 r hr
      rw [m3.name] at h
      exact List.mem_flatMap.2 ⟨m, m1, h⟩)⟩)
  refine ⟨fs', fs'', h1, k1, fun m hm hne => ?_⟩
  obtain ⟨r, hr, e, -⟩ := h4 m hm hne
  obtain ⟨fp, f1, f2, f3, f4, f5⟩ := k2 r hr
  rw [e.name] at f1 f5
  exact ⟨fp, f1, f2, f3, alike_heights hC hrev (turned_shapes e emb) f4, f5⟩


/-- C116, the part that holds, for the images of buildings whose faces do not overlap: the images made after the conversion show the faces of the meshes in the OBJ file. Missing: as in C110. -/
theorem C116_image_partial (U : UsesNodes T lib emb) (B : NodesBack T emb rnd) (hL : SoupLaw lib) (hlist : Lists T)
    {Ok : Pwh K → Prop} {Good : T.C.PSet → Prop} {Gen : V2 K → Prop} (hC : Lawful T.C Ok Good Gen) (hrev : ∀ (a : Poly K) p, T.C.side a.reverse p = T.C.side a p) (hlr : T.lr = true)
    (hbd : ∀ q r, ∀ s ∈ T.C.inter q r, s.outer ≠ []) (args args' : Args) (fs : Fs) (t x o : Text) (la : Bool) (p : K) (hp : 0 < p) (ms : List Mesh)
    (ha : AsksConversion args t "OBJ".toList o "OFF".toList) (hext : NamedLike (splitSlash t) "obj".toList) (hfile : fs (splitSlash t) = some (.file x))
    (hread : Obj.read T.rnd x = .ok ms) (hd : FreshDirectory fs (splitSlash o)) (hm : ∀ m ∈ ms, Convertible T.rnd emb m) (hn : (ms.map Mesh.name).Nodup)
    (hscene : Given args' "<scene>" o) (hfmt : Given args' "--input-format" "OFF".toList) (hprune : Switch args' "--prune" false) (hterrain : Switch args' "--terrain" false)
    (ha' : AsksImages T args' la p) (hb : ∀ m ∈ ms, m.name ≠ "terrain".toList → Mappable T.C Ok Gen emb p m) (hv : (splitSlash o).getLast? ≠ some "vectors".toList)
    (hv' : (splitSlash o).getLast? ≠ some "rasters".toList)
    (hr : Ready fs ((splitSlash o).dropLast ++ ["vectors".toList]) (ms.flatMap fun m => [m.name ++ ".shp".toList, m.name ++ ".txt".toList]))
    (hi : Ready fs ((splitSlash o).dropLast ++ ["rasters".toList]) (ms.map fun m => m.name ++ ".tiff".toList)) :
    ∃ fs' fs'', formatMain T args fs = (.ok 0, fs') ∧ orthoMain T args' fs' = (.ok 0, fs'') ∧ ∀ m ∈ ms, m.name ≠ "terrain".toList → ∃ r : Raster K, r.name = m.name ∧ r.epsg = 2154 ∧
      ShowsFaces T.C Ok Gen (faceShapes (m.points.map emb) (m.faces.map Face.points)) (emb ⟨0, 0, 0⟩) p (UpLeft p) r ∧
      fs'' ((splitSlash o).dropLast ++ ["rasters".toList, m.name ++ ".tiff".toList]) = some (.file (T.G.tiff r.toGdal)) := by
  obtain ⟨fs', bs, tr, h1, h2, h3, h4, h5, h6⟩ := converted_input U B hL hlist args args' fs t x o ms ha hext hfile hread hd hm hn hscene hfmt hprune hterrain
  obtain ⟨fs'', k1, k2⟩ := C110_scene_partial U hlr hC hrev hbd hL args' fs' o la p hp bs tr ⟨0, 0, 0⟩ 2154 h2 ha' (fun r hr => by
      obtain ⟨m, m1, m2, m3⟩ := h5 r hr
      exact mappable_turned hC hrev m3 (hb m m1 m2)) h3 (fun r hr => by
      obtain ⟨m, m1, m2, m3⟩ := h5 r hr
      rw [m3.name]
      exact (hm m m1).file.2.1) (h6 _ _ hv ⟨hr.dir_ok, fun n hn' => hr.no_dir n (by
      obtain ⟨r, hr, h⟩ := List.mem_flatMap.1 hn'
      obtain ⟨m, m1, m2, m3⟩ := h5 r hr
      rw [m3.name] at h
      exact List.mem_flatMap.2 ⟨m, m1, h⟩)⟩) (h6 _ _ hv' ⟨hi.dir_ok, fun n hn' => hi.no_dir n (by
      obtain ⟨r, hr, h⟩ := List.mem_map.1 hn'
      obtain ⟨m, m1, m2, m3⟩ := h5 r hr
      rw [m3.name] at h
      exact List.mem_map.2 ⟨m, m1, h⟩)⟩)
  refine ⟨fs', fs'', h1, k1, fun m hm hne => ?_⟩
  obtain ⟨r, hr, e, -⟩ := h4 m hm hne
  obtain ⟨img, f1, f2, f3, f4⟩ := k2 r hr
  rw [e.name] at f1 f4
  exact ⟨img, f1, f2, alike_shows hC hrev (turned_shapes e emb) f3, f4⟩

/-- C116, the part that holds, for the images of buildings whose faces may be one above another: the images made after the conversion show the visible parts of the faces of the meshes in the OBJ file. Missing: as in C110. -/
theorem C116_visible_partial (U : UsesNodes T lib emb) (B : NodesBack T emb rnd) (hL : SoupLaw lib) (hlist : Lists T)
    {Ok : Pwh K → Prop} {Good : T.C.PSet → Prop} {Gen : V2 K → Prop} (hC : Lawful T.C Ok Good Gen) (hrev : ∀ (a : Poly K) p, T.C.side a.reverse p = T.C.side a p) (hlr : T.lr = true)
    (hbd : ∀ q r, ∀ s ∈ T.C.inter q r, s.outer ≠ []) (args args' : Args) (fs : Fs) (t x o : Text) (la : Bool) (p : K) (hp : 0 < p) (ms : List Mesh)
    (ha : AsksConversion args t "OBJ".toList o "OFF".toList) (hext : NamedLike (splitSlash t) "obj".toList) (hfile : fs (splitSlash t) = some (.file x))
    (hread : Obj.read T.rnd x = .ok ms) (hd : FreshDirectory fs (splitSlash o)) (hm : ∀ m ∈ ms, Convertible T.rnd emb m) (hn : (ms.map Mesh.name).Nodup)
    (hscene : Given args' "<scene>" o) (hfmt : Given args' "--input-format" "OFF".toList) (hprune : Switch args' "--prune" false) (hterrain : Switch args' "--terrain" false)
    (ha' : AsksImages T args' la p) (hb : ∀ m ∈ ms, m.name ≠ "terrain".toList → Picturable T.C Ok Gen emb p m) (hv : (splitSlash o).getLast? ≠ some "vectors".toList)
    (hv' : (splitSlash o).getLast? ≠ some "rasters".toList)
    (hr : Ready fs ((splitSlash o).dropLast ++ ["vectors".toList]) (ms.flatMap fun m => [m.name ++ ".shp".toList, m.name ++ ".txt".toList]))
    (hi : Ready fs ((splitSlash o).dropLast ++ ["rasters".toList]) (ms.map fun m => m.name ++ ".tiff".toList)) :
    ∃ fs' fs'', formatMain T args fs = (.ok 0, fs') ∧ orthoMain T args' fs' = (.ok 0, fs'') ∧ ∀ m ∈ ms, m.name ≠ "terrain".toList → ∃ r : Raster K, r.name = m.name ∧ r.epsg = 2154 ∧
      ShowsVisible T.C Ok Gen (faceShapes (m.points.map emb) (m.faces.map Face.points)) (emb ⟨0, 0, 0⟩) p r ∧
      fs'' ((splitSlash o).dropLast ++ ["rasters".toList, m.name ++ ".tiff".toList]) = some (.file (T.G.tiff r.toGdal)) := by
  obtain ⟨fs', bs, tr, h1, h2, h3, h4, h5, h6⟩ := converted_input U B hL hlist args args' fs t x o ms ha hext hfile hread hd hm hn hscene hfmt hprune hterrain
  obtain ⟨fs'', k1, k2⟩ := C110_visible_scene_partial U hlr hC hrev hbd hL args' fs' o la p hp bs tr ⟨0, 0, 0⟩ 2154 h2 ha' (fun r hr => by
      obtain ⟨m, m1, m2, m3⟩ := h5 r hr
      exact picturable_turned hC hrev m3 (hb m m1 m2)) h3 (fun r hr => by
      obtain ⟨m, m1, m2, m3⟩ := h5 r hr
      rw [m3.name]
      exact (hm m m1).file.2.1) (h6 _ _ hv ⟨hr.dir_ok, fun n hn' => hr.no_dir n (by
      obtain ⟨r, hr, h⟩ := List.mem_flatMap.1 hn'
      obtain ⟨m, m1, m2, m3⟩ := h5 r hr
      rw [m3.name] at h
      exact List.mem_flatMap.2 ⟨m, m1, h⟩)⟩) (h6 _ _ hv' ⟨hi.dir_ok, fun n hn' => hi.no_dir n (by
      obtain ⟨r, hr, h⟩ := List.mem_map.1 hn'
      obtain ⟨m, m1, m2, m3⟩ := h5 r hr
      rw [m3.name] at h
      exact List.mem_map.2 ⟨m, m1, h⟩)⟩)
  refine ⟨fs', fs'', h1, k1, fun m hm hne => ?_⟩
  obtain ⟨r, hr, e, -⟩ := h4 m hm hne
  obtain ⟨img, f1, f2, f3, f4⟩ := k2 r hr
  rw [e.name] at f1 f4
  exact ⟨img, f1, f2, alike_visible hC hrev (turned_shapes e emb) f3, f4⟩

/-- The heights of a building are determined by its faces. -/
theorem heights_unique {C : Cgal K} {Gen : V2 K → Prop} {faces : List (List (V3 K))} {f g : V2 K → Out K} (hf : HeightsOf C Gen faces f) (hg : HeightsOf C Gen faces g) (q : V2 K) (hq : Gen q) :
    f q = g q := by
  by_cases h : ∃ l ∈ faces, ∃ z, Over C l q z
  · obtain ⟨z, e, t⟩ := (hf q hq).1 h
    obtain ⟨z', e', t'⟩ := (hg q hq).1 h
    rw [e, e']
    obtain ⟨l, hl, o⟩ := t.1
    obtain ⟨l', hl', o'⟩ := t'.1
    rw [le_antisymm (t'.2 l hl z o) (t.2 l' hl' z' o')]
  · rw [(hf q hq).2 h, (hg q hq).2 h]

/-- C116, the part that holds: drawing the OBJ file, and drawing the directory made of it, give vector files of footprints with the same heights everywhere. Missing: straight angles and other
orders of the faces, as in C107. -/
theorem C116_same_partial (U : UsesNodes T lib emb) (B : NodesBack T emb rnd) (hL : SoupLaw lib) (hlist : Lists T)
    {Ok : Pwh K → Prop} {Good : T.C.PSet → Prop} {Gen : V2 K → Prop} (hC : Lawful T.C Ok Good Gen) (hrev : ∀ (a : Poly K) p, T.C.side a.reverse p = T.C.side a p)
    (args args' args'' : Args) (fs : Fs) (t x o : Text) (la la' : Bool) (ms : List Mesh)
    (ha : AsksConversion args t "OBJ".toList o "OFF".toList) (hext : NamedLike (splitSlash t) "obj".toList) (hfile : fs (splitSlash t) = some (.file x))
    (hread : Obj.read T.rnd x = .ok ms) (hd : FreshDirectory fs (splitSlash o)) (hm : ∀ m ∈ ms, Convertible T.rnd emb m) (hn : (ms.map Mesh.name).Nodup)
    (hscene : Given args' "<scene>" o) (hfmt : Given args' "--input-format" "OFF".toList) (hprune : Switch args' "--prune" false) (hterrain : Switch args' "--terrain" false)
    (ha' : AsksVectors args' la) (hb : ∀ m ∈ ms, m.name ≠ "terrain".toList → Drawable T.C Ok Gen emb m) (hv : (splitSlash o).getLast? ≠ some "vectors".toList)
    (hr : Ready fs ((splitSlash o).dropLast ++ ["vectors".toList]) (ms.flatMap fun m => [m.name ++ ".shp".toList, m.name ++ ".txt".toList]))
    (hscene' : Given args'' "<scene>" t) (hfmt' : Given args'' "--input-format" "OBJ".toList) (hprune' : Switch args'' "--prune" false) (hterrain' : Switch args'' "--terrain" false)
    (ha'' : AsksVectors args'' la')
    (hr' : Ready fs ((splitSlash t).dropLast ++ ["vectors".toList]) (ms.flatMap fun m => [m.name ++ ".shp".toList, m.name ++ ".txt".toList])) :
    ∃ direct converted drawn, orthoMain T args'' fs = (.ok 0, direct) ∧ formatMain T args fs = (.ok 0, converted) ∧ orthoMain T args' converted = (.ok 0, drawn) ∧
      ∀ m ∈ ms, m.name ≠ "terrain".toList → ∃ f g : FootPrint K, f.name = g.name ∧ f.ref = g.ref ∧ f.epsg = g.epsg ∧ (∀ q, Gen q → f.brick.height T.C q = g.brick.height T.C q) ∧
        direct ((splitSlash t).dropLast ++ ["vectors".toList, m.name ++ ".shp".toList]) = some (.file (T.G.shp (f.toOgr T.C la'))) ∧
        drawn ((splitSlash o).dropLast ++ ["vectors".toList, m.name ++ ".shp".toList]) = some (.file (T.G.shp (g.toOgr T.C la))) := by
  obtain ⟨fs', fs'', h1, h2, h3⟩ := C116_heights_partial U B hL hlist hC hrev args args' fs t x o la ms ha hext hfile hread hd hm hn hscene hfmt hprune hterrain ha' hb hv hr
  obtain ⟨direct, k1, k2⟩ := C107_obj_partial U hC hrev hL args'' fs t x la' ms hscene' hfmt' hext hfile hread hprune' hterrain' ha'' hb hn (fun m h => (hm m h).file.2.1) hr'
  refine ⟨direct, fs', fs'', k1, h1, h2, fun m hm hne => ?_⟩
  obtain ⟨g, g1, g2, g3, g4, g5⟩ := h3 m hm hne
  obtain ⟨f, f1, f2, f3, f4, f5⟩ := k2 m hm hne
  exact ⟨f, g, f1.trans g1.symm, f2.trans g2.symm, f3.trans g3.symm, heights_unique f4 g4, f5, g5⟩

end
end City.Props
