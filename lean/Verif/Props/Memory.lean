import Verif.Model.Memory
import Mathlib.Algebra.BigOperators.Group.List.Basic
import Mathlib.Tactic.Ring
/-
C126: what an export or an import leaves allocated.
-/
set_option linter.unusedSectionVars false
namespace City.Spec
open City.Mem

/-- How many objects of a kind are allocated. -/
def allocated (k : Kind) (h : Heap) : Nat := h.live.countP (fun b => b.2 = k)

/-- A memory that a program can have: every block has one address, below the next one. -/
def Sound (h : Heap) : Prop := (∀ b ∈ h.live, b.1 < h.next) ∧ (h.live.map (·.1)).Nodup

/-- Everything that was allocated still is, and beyond that `c k` objects of every kind `k`. -/
def LeftOver (h h' : Heap) (c : Kind → Nat) : Prop :=
  (∀ b ∈ h.live, b ∈ h'.live) ∧ ∀ k, allocated k h' = allocated k h + c k

/-- No more is allocated than before. -/
def GivenBack (h h' : Heap) : Prop := ∀ k, allocated k h' = allocated k h

/-- The objects made for the geometry of facets: a polygon each, a ring for every boundary, a point for every vertex. -/
def geometry {K : Type} (fs : List (FacePrint K)) : Kind → Nat
  | .ogrPolygon => fs.length
  | .ogrRing => (fs.map fun f => 1 + f.border.holes.length).sum
  | .ogrPoint => (fs.map fun f => f.border.outer.length + (f.border.holes.map List.length).sum).sum
  | _ => 0

/-- The fields of a layer of facets: five, with the labels eight. -/
def fields (labels : Bool) : Kind → Nat
  | .ogrField => if labels then 8 else 5
  | _ => 0

/-- `n` objects of one kind. -/
def some' (k : Kind) (n : Nat) : Kind → Nat := fun j => if j = k then n else 0

end City.Spec

namespace City.Mem
open City.Spec

/-- What the rules below keep track of. -/
structure Grows (h h' : Heap) (c : Kind → Nat) : Prop where
  sound : Sound h'
  next : h.next ≤ h'.next
  kept : ∀ b ∈ h.live, b ∈ h'.live
  fresh : ∀ b ∈ h'.live, b.1 < h.next → b ∈ h.live
  count : ∀ k, allocated k h' = allocated k h + c k

theorem Grows.refl {h : Heap} (hs : Sound h) : Grows h h (fun _ => 0) :=
  ⟨hs, le_refl _, fun _ => id, fun _ hb _ => hb, fun _ => rfl⟩

theorem Grows.trans {h h1 h2 : Heap} {c d : Kind → Nat} (a : Grows h h1 c) (b : Grows h1 h2 d) : Grows h h2 (c + d) :=
  ⟨b.sound, a.next.trans b.next, fun x hx => b.kept x (a.kept x hx),
    fun x hx hl => a.fresh x (b.fresh x hx (lt_of_lt_of_le hl a.next)) hl,
    fun k => by rw [b.count, a.count, Pi.add_apply, Nat.add_assoc]⟩

theorem Grows.of_eq {h h' : Heap} {c d : Kind → Nat} (a : Grows h h' c) (e : c = d) : Grows h h' d := e ▸ a

theorem hm_bind {α β : Type} (x : Hm α) (f : α → Hm β) (h : Heap) : (x >>= f) h =
    match x h with
    | (.ok a, h') => f a h'
    | (.thrown e, h') => (.thrown e, h')
    | (.ub, h') => (.ub, h') := rfl

theorem hm_ok {α β : Type} {x : Hm α} {f : α → Hm β} {h h' : Heap} {a : α} (e : x h = (.ok a, h')) : (x >>= f) h = f a h' := by
  rw [hm_bind, e]

theorem hm_thrown {α β : Type} {x : Hm α} {f : α → Hm β} {h h' : Heap} {t : Exc} (e : x h = (.thrown t, h')) : (x >>= f) h = (.thrown t, h') := by
  rw [hm_bind, e]

theorem hm_ub {α β : Type} {x : Hm α} {f : α → Hm β} {h h' : Heap} (e : x h = (.ub, h')) : (x >>= f) h = (.ub, h') := by
  rw [hm_bind, e]

theorem hm_pure {α : Type} (a : α) (h : Heap) : (pure a : Hm α) h = (.ok a, h) := rfl

theorem alloc_grows (k : Kind) {h : Heap} (hs : Sound h) :
    Grows h ⟨h.next + 1, (h.next, k) :: h.live, h.meshes⟩ (some' k 1) := by
  refine ⟨⟨?_, ?_⟩, Nat.le_succ _, fun b hb => List.mem_cons_of_mem _ hb, ?_, ?_⟩
  · intro b hb
    rcases List.mem_cons.1 hb with rfl | hb
    · exact Nat.lt_succ_self _
    · exact Nat.lt_succ_of_lt (hs.1 b hb)
  · refine List.nodup_cons.2 ⟨fun hm => ?_, hs.2⟩
    obtain ⟨b, hb, e⟩ := List.mem_map.1 hm
    have h1 := hs.1 b hb
    have h2 : b.1 = h.next := e
    omega
  · intro b hb hl
    rcases List.mem_cons.1 hb with rfl | hb
    · exact absurd hl (lt_irrefl _)
    · exact hb
  · intro j
    unfold allocated some'
    rw [List.countP_cons]
    by_cases e : j = k
    · subst e; simp
    · have : ¬ k = j := fun x => e x.symm
      simp [e, this]

theorem live_here {h : Heap} {a : Nat} {k : Kind} (hb : (a, k) ∈ h.live) : a ∈ h.live.map (·.1) :=
  List.mem_map.2 ⟨(a, k), hb, rfl⟩

theorem touch_ok {h : Heap} {a : Nat} {k : Kind} (hb : (a, k) ∈ h.live) : touch a h = (.ok (), h) := by
  unfold touch
  exact if_pos (live_here hb)

/-- The memory after the release of a block. -/
def without (h : Heap) (a : Nat) : Heap := ⟨h.next, h.live.filter (fun b => b.1 != a), h.meshes⟩

theorem release_ok {h : Heap} {a : Nat} {k : Kind} (hb : (a, k) ∈ h.live) : release a h = (.ok (), without h a) := by
  unfold release
  exact if_pos (live_here hb)

theorem mem_without {h : Heap} {a : Nat} {b : Nat × Kind} : b ∈ (without h a).live ↔ b ∈ h.live ∧ b.1 ≠ a := by
  unfold without
  simp [List.mem_filter]

theorem sound_without {h : Heap} (hs : Sound h) (a : Nat) : Sound (without h a) :=
  ⟨fun b hb => hs.1 b (mem_without.1 hb).1, (List.filter_sublist.map _).nodup hs.2⟩

theorem count_without {h : Heap} (hs : Sound h) {a : Nat} {k : Kind} (hb : (a, k) ∈ h.live) (j : Kind) :
    allocated j h = allocated j (without h a) + some' k 1 j := by
  unfold allocated without some'
  obtain ⟨-, hn⟩ := hs
  dsimp only
  generalize h.live = l at hb hn
  induction l with
  | nil => cases hb
  | cons x t ih =>
    rw [List.map_cons, List.nodup_cons] at hn
    rcases List.mem_cons.1 hb with rfl | hb'
    · have hf : t.filter (fun b => b.1 != a) = t := by
        refine List.filter_eq_self.2 fun b hbt => ?_
        have : b.1 ≠ a := fun e => hn.1 (List.mem_map.2 ⟨b, hbt, e⟩)
        simpa using this
      rw [List.filter_cons_of_neg (by simp), hf, List.countP_cons]
      by_cases e : j = k
      · subst e; simp
      · have : ¬ k = j := fun y => e y.symm
        simp [e, this]
    · have hx : x.1 ≠ a := fun e => hn.1 (List.mem_map.2 ⟨(a, k), hb', e.symm⟩)
      rw [List.filter_cons_of_pos (by simpa using hx), List.countP_cons, List.countP_cons, ih hb' hn.2]
      omega

theorem Grows.release {h0 h : Heap} {c d : Kind → Nat} {a : Nat} {k : Kind} (g : Grows h0 h c) (hb : (a, k) ∈ h.live) (ha : h0.next ≤ a)
    (hs0 : Sound h0) (e : c = d + some' k 1) : Grows h0 (without h a) d := by
  refine ⟨sound_without g.sound a, g.next, fun b hb0 => mem_without.2 ⟨g.kept b hb0, ?_⟩, fun b hb' hl => g.fresh b (mem_without.1 hb').1 hl, fun j => ?_⟩
  · have := hs0.1 b hb0
    omega
  · have h1 := count_without g.sound hb j
    have h2 := g.count j
    rw [e, Pi.add_apply] at h2
    omega

section
variable {K : Type} [Field K] [LinearOrder K]

theorem addPoints_grows (r : Nat) (p : Poly K) {h : Heap} (hs : Sound h) {k : Kind} (hr : (r, k) ∈ h.live) :
    ∃ h', addPoints r p h = (.ok (), h') ∧ Grows h h' (some' .ogrPoint p.length) := by
  induction p generalizing h with
  | nil => exact ⟨h, rfl, (Grows.refl hs).of_eq (by funext j; simp [some'])⟩
  | cons v t ih =>
    have g := alloc_grows .ogrPoint hs
    obtain ⟨h', e, g'⟩ := ih g.sound (g.kept _ hr)
    refine ⟨h', ?_, (g.trans g').of_eq ?_⟩
    · show (alloc .ogrPoint >>= fun q => touch r >>= fun _ => touch q >>= fun _ => addPoints r t) h = _
      rw [hm_ok (x := alloc .ogrPoint) rfl, hm_ok (touch_ok (g.kept _ hr)), hm_ok (touch_ok (k := .ogrPoint) List.mem_cons_self)]
      exact e
    · funext j
      simp only [some', Pi.add_apply, List.length_cons]
      split <;> omega

theorem ringToOgr_grows (p : Poly K) {h : Heap} (hs : Sound h) :
    ∃ h', ringToOgr p h = (.ok h.next, h') ∧ Grows h h' (some' .ogrRing 1 + some' .ogrPoint p.length) ∧ (h.next, Kind.ogrRing) ∈ h'.live := by
  have g := alloc_grows .ogrRing hs
  obtain ⟨h', e, g'⟩ := addPoints_grows h.next p g.sound (k := .ogrRing) List.mem_cons_self
  refine ⟨h', ?_, g.trans g', g'.kept _ List.mem_cons_self⟩
  show (alloc .ogrRing >>= fun r => addPoints r p >>= fun _ => pure r) h = _
  rw [hm_ok (x := alloc .ogrRing) rfl, hm_ok e]
  rfl

theorem addRings_grows (a : Nat) (ps : List (Poly K)) {h : Heap} (hs : Sound h) {k : Kind} (ha : (a, k) ∈ h.live) :
    ∃ h', addRings a ps h = (.ok (), h') ∧ Grows h h' (some' .ogrRing ps.length + some' .ogrPoint (ps.map List.length).sum) := by
  induction ps generalizing h with
  | nil => exact ⟨h, rfl, (Grows.refl hs).of_eq (by funext j; simp [some'])⟩
  | cons p t ih =>
    obtain ⟨h1, e1, g1, m1⟩ := ringToOgr_grows p hs
    obtain ⟨h', e, g'⟩ := ih g1.sound (g1.kept _ ha)
    refine ⟨h', ?_, (g1.trans g').of_eq ?_⟩
    · show (ringToOgr p >>= fun q => touch a >>= fun _ => touch q >>= fun _ => addRings a t) h = _
      rw [hm_ok e1, hm_ok (touch_ok (g1.kept _ ha)), hm_ok (touch_ok m1)]
      exact e
    · funext j
      simp only [some', Pi.add_apply, List.length_cons, List.map_cons, List.sum_cons]
      split <;> split <;> omega

theorem facetToOgr_grows (f : FacePrint K) {h : Heap} (hs : Sound h) :
    ∃ h', facetToOgr f h = (.ok h.next, h') ∧ Grows h h' (geometry [f] + some' .ogrFeature 1) ∧ (h.next, Kind.ogrFeature) ∈ h'.live := by
  have g0 := alloc_grows .ogrFeature hs
  have g1 := alloc_grows .ogrPolygon g0.sound
  obtain ⟨h', e, g'⟩ := addRings_grows (h.next + 1) (f.border.outer :: f.border.holes) g1.sound (k := .ogrPolygon) List.mem_cons_self
  have m1 : (h.next, Kind.ogrFeature) ∈ h'.live := g'.kept _ (g1.kept _ List.mem_cons_self)
  have e2 : pwhToOgr f.border ⟨h.next + 1, (h.next, .ogrFeature) :: h.live, h.meshes⟩ = (.ok (h.next + 1), h') := by
    show (alloc .ogrPolygon >>= fun q => addRings q (f.border.outer :: f.border.holes) >>= fun _ => pure q) _ = _
    rw [hm_ok (x := alloc .ogrPolygon) rfl, hm_ok e]
    rfl
  refine ⟨h', ?_, ((g0.trans g1).trans g').of_eq ?_, m1⟩
  · show (alloc .ogrFeature >>= fun x => pwhToOgr f.border >>= fun q => touch x >>= fun _ => touch q >>= fun _ => pure x) h = _
    rw [hm_ok (x := alloc .ogrFeature) rfl, hm_ok e2, hm_ok (touch_ok m1), hm_ok (touch_ok (k := .ogrPolygon) (g'.kept _ List.mem_cons_self))]
    rfl
  · funext j
    cases j <;> simp [some', geometry]
    · omega

theorem geometry_cons (f : FacePrint K) (fs : List (FacePrint K)) : geometry (f :: fs) = geometry [f] + geometry fs := by
  funext j
  cases j <;> simp [geometry]
  omega

theorem makeFields_grows (n : Nat) {h : Heap} (hs : Sound h) :
    ∃ h', makeFields n h = (.ok (), h') ∧ Grows h h' (some' .ogrField n) := by
  induction n generalizing h with
  | zero => exact ⟨h, rfl, (Grows.refl hs).of_eq (by funext j; simp [some'])⟩
  | succ n ih =>
    have g := alloc_grows .ogrField hs
    obtain ⟨h', e, g'⟩ := ih g.sound
    refine ⟨h', ?_, (g.trans g').of_eq ?_⟩
    · show (alloc .ogrField >>= fun q => touch q >>= fun _ => makeFields n) h = _
      rw [hm_ok (x := alloc .ogrField) rfl, hm_ok (touch_ok (k := .ogrField) List.mem_cons_self)]
      exact e
    · funext j
      simp only [some', Pi.add_apply]
      split <;> omega

/-- Every feature is taken. -/
theorem insert_all (takes : Nat → Bool) (fs : List (FacePrint K)) (i : Nat) (ht : ∀ j, i ≤ j → j < i + fs.length → takes j = true) {h : Heap} (hs : Sound h) :
    ∃ h', insertFacets takes i fs h = (.ok (), h') ∧ Grows h h' (geometry fs) := by
  induction fs generalizing h i with
  | nil => exact ⟨h, rfl, (Grows.refl hs).of_eq (by funext j; cases j <;> rfl)⟩
  | cons f fs ih =>
    obtain ⟨h1, e1, g1, m1⟩ := facetToOgr_grows f hs
    have g2 := g1.release m1 (le_refl _) hs rfl
    obtain ⟨h', e, g'⟩ := ih (i + 1) (fun j h1 h2 => ht j (by omega) (by simp only [List.length_cons]; omega)) g2.sound
    refine ⟨h', ?_, (g2.trans g').of_eq (geometry_cons f fs).symm⟩
    show (facetToOgr f >>= fun x => if takes i then (release x >>= fun _ => insertFacets takes (i + 1) fs) else raise .runtimeError) h = _
    rw [hm_ok e1, if_pos (ht i (le_refl _) (by simp only [List.length_cons]; omega)), hm_ok (release_ok m1)]
    exact e

/-- Feature `n` is the first that is not taken. -/
theorem insert_some (takes : Nat → Bool) (fs : List (FacePrint K)) (i n : Nat) (hn : n < fs.length) (ht : ∀ j, i ≤ j → j < i + n → takes j = true)
    (hf : takes (i + n) = false) {h : Heap} (hs : Sound h) :
    ∃ h', insertFacets takes i fs h = (.thrown .runtimeError, h') ∧ Grows h h' (geometry (fs.take (n + 1)) + some' .ogrFeature 1) := by
  induction fs generalizing h i n with
  | nil => exact absurd hn (Nat.not_lt_zero _)
  | cons f fs ih =>
    obtain ⟨h1, e1, g1, m1⟩ := facetToOgr_grows f hs
    cases n with
    | zero =>
      refine ⟨h1, ?_, g1⟩
      show (facetToOgr f >>= fun x => if takes i then (release x >>= fun _ => insertFacets takes (i + 1) fs) else raise .runtimeError) h = _
      rw [hm_ok e1, if_neg (by rw [← Nat.add_zero i, hf]; exact Bool.false_ne_true)]
      rfl
    | succ n =>
      have g2 := g1.release m1 (le_refl _) hs rfl
      obtain ⟨h', e, g'⟩ := ih (i + 1) n (by simpa using hn) (fun j h1 h2 => ht j (by omega) (by omega)) (by rw [← hf]; congr 1; omega) g2.sound
      refine ⟨h', ?_, (g2.trans g').of_eq ?_⟩
      · show (facetToOgr f >>= fun x => if takes i then (release x >>= fun _ => insertFacets takes (i + 1) fs) else raise .runtimeError) h = _
        rw [hm_ok e1, if_pos (ht i (le_refl _) (by omega)), hm_ok (release_ok m1)]
        exact e
      · rw [List.take_succ_cons, geometry_cons f (fs.take (n + 1)), add_assoc]

theorem vectorWrite_ok (modes : Modes) (g : Answers) (f : FootPrint K) (labels : Bool) (hm : canSave modes = true) (hd : g.driver = true)
    (hc : g.created = true) (hl : g.layer = true) (ht : ∀ i < f.brick.faces.length, g.takes i = true) {h : Heap} (hs : Sound h) :
    ∃ h', vectorWrite modes g f labels h = (.ok (), h') ∧ Grows h h' (fields labels + geometry f.brick.faces) := by
  have g0 := alloc_grows .dataset hs
  obtain ⟨h1, e1, g1⟩ := makeFields_grows (if labels then 8 else 5) g0.sound
  obtain ⟨h2, e2, g2⟩ := insert_all g.takes f.brick.faces 0 (fun j _ hj => ht j (by omega)) g1.sound
  have m : (h.next, Kind.dataset) ∈ h2.live := g2.kept _ (g1.kept _ List.mem_cons_self)
  have gg := ((g0.trans g1).trans g2).release (d := fields labels + geometry f.brick.faces) m (le_refl _) hs (by
    funext j; cases j <;> simp [some', fields, geometry])
  refine ⟨_, ?_, gg⟩
  unfold vectorWrite
  rw [if_pos hm, hd, hc, hl]
  show (alloc .dataset >>= fun d => (makeFields _ >>= fun _ => insertFacets g.takes 0 f.brick.faces) >>= fun _ => release d) h = _
  rw [hm_ok (x := alloc .dataset) rfl, hm_ok ((hm_ok e1).trans e2), release_ok m]

theorem vectorWrite_refused (modes : Modes) (g : Answers) (f : FootPrint K) (labels : Bool) (hm : canSave modes = true) (hd : g.driver = true)
    (hc : g.created = true) (hl : g.layer = true) (n : Nat) (hn : n < f.brick.faces.length) (ht : ∀ i < n, g.takes i = true) (hf : g.takes n = false)
    {h : Heap} (hs : Sound h) :
    ∃ h', vectorWrite modes g f labels h = (.thrown .runtimeError, h') ∧
      Grows h h' (fields labels + geometry (f.brick.faces.take (n + 1)) + some' .ogrFeature 1 + some' .dataset 1) := by
  have g0 := alloc_grows .dataset hs
  obtain ⟨h1, e1, g1⟩ := makeFields_grows (if labels then 8 else 5) g0.sound
  obtain ⟨h2, e2, g2⟩ := insert_some g.takes f.brick.faces 0 n hn (fun j _ hj => ht j (by omega)) (by rw [Nat.zero_add]; exact hf) g1.sound
  refine ⟨h2, ?_, ((g0.trans g1).trans g2).of_eq (by funext j; cases j <;> simp [some', fields, geometry])⟩
  unfold vectorWrite
  rw [if_pos hm, hd, hc, hl]
  show (alloc .dataset >>= fun d => (makeFields _ >>= fun _ => insertFacets g.takes 0 f.brick.faces) >>= fun _ => release d) h = _
  rw [hm_ok (x := alloc .dataset) rfl, hm_thrown ((hm_ok e1).trans e2)]

theorem vectorWrite_noLayer (modes : Modes) (g : Answers) (f : FootPrint K) (labels : Bool) (hm : canSave modes = true) (hd : g.driver = true)
    (hc : g.created = true) (hl : g.layer = false) {h : Heap} (hs : Sound h) :
    ∃ h', vectorWrite modes g f labels h = (.thrown .runtimeError, h') ∧ Grows h h' (some' .dataset 1) := by
  refine ⟨_, ?_, alloc_grows .dataset hs⟩
  unfold vectorWrite
  rw [if_pos hm, hd, hc, hl]
  rfl

theorem readPoints_grows (r : Ring2 K) {h : Heap} (hs : Sound h) :
    ∃ h', readPoints r h = (.ok (), h') ∧ Grows h h' (some' .ogrPoint r.length) := by
  induction r generalizing h with
  | nil => exact ⟨h, rfl, (Grows.refl hs).of_eq (by funext j; simp [some'])⟩
  | cons v t ih =>
    have g := alloc_grows .ogrPoint hs
    obtain ⟨h', e, g'⟩ := ih g.sound
    refine ⟨h', ?_, (g.trans g').of_eq ?_⟩
    · show (alloc .ogrPoint >>= fun q => touch q >>= fun _ => readPoints t) h = _
      rw [hm_ok (x := alloc .ogrPoint) rfl, hm_ok (touch_ok (k := .ogrPoint) List.mem_cons_self)]
      exact e
    · funext j
      simp only [some', Pi.add_apply, List.length_cons]
      split <;> omega

theorem points_add (m n : Nat) : some' .ogrPoint m + some' .ogrPoint n = some' .ogrPoint (m + n) := by
  funext j
  simp only [some', Pi.add_apply]
  split <;> omega

theorem points_zero : (fun _ => 0) = some' .ogrPoint 0 := by
  funext j
  simp [some']

theorem ringOfOgr_grows (r : Ring2 K) {h : Heap} (hs : Sound h) :
    ∃ (n : Nat) (h' : Heap), ringOfOgr r h = (ringFromOgr r, h') ∧ Grows h h' (some' .ogrPoint n) ∧ ∀ p, ringFromOgr r = .ok p → n = p.length := by
  by_cases hr : r = []
  · refine ⟨0, h, ?_, (Grows.refl hs).of_eq points_zero, fun p hp => ?_⟩
    · unfold ringOfOgr ringFromOgr
      rw [if_pos hr, if_pos hr]
      rfl
    · unfold ringFromOgr at hp
      rw [if_pos hr] at hp
      cases hp
  · obtain ⟨h', e, g⟩ := readPoints_grows r.dropLast hs
    refine ⟨_, h', ?_, g, fun p hp => ?_⟩
    · unfold ringOfOgr ringFromOgr
      rw [if_neg hr, if_neg hr, hm_ok e]
      rfl
    · unfold ringFromOgr at hp
      rw [if_neg hr] at hp
      rw [Out.ok.inj hp]

theorem ringsOfOgr_grows (rs : List (Ring2 K)) {h : Heap} (hs : Sound h) :
    ∃ (n : Nat) (h' : Heap), ringsOfOgr rs h = (Out.mapM ringFromOgr rs, h') ∧ Grows h h' (some' .ogrPoint n) ∧
      ∀ ps, Out.mapM ringFromOgr rs = .ok ps → n = (ps.map List.length).sum := by
  induction rs generalizing h with
  | nil => exact ⟨0, h, rfl, (Grows.refl hs).of_eq points_zero, fun ps hp => by rw [← Out.ok.inj hp]; rfl⟩
  | cons r t ih =>
    obtain ⟨n1, h1, e1, g1, c1⟩ := ringOfOgr_grows r hs
    obtain ⟨n2, h2, e2, g2, c2⟩ := ih g1.sound
    have hu : ∀ x : Heap, ringsOfOgr (r :: t) x = (ringOfOgr r >>= fun p => ringsOfOgr t >>= fun ps => pure (p :: ps)) x := fun _ => rfl
    cases hr : ringFromOgr r with
    | ok p =>
      rw [hr] at e1
      cases ht : Out.mapM ringFromOgr t with
      | ok ps =>
        rw [ht] at e2
        refine ⟨n1 + n2, h2, ?_, (g1.trans g2).of_eq (points_add _ _), fun qs hq => ?_⟩
        · rw [hu, hm_ok e1, hm_ok e2, Out.mapM_cons, hr, Out.ok_bind, ht]
          rfl
        · rw [Out.mapM_cons, hr, Out.ok_bind, ht] at hq
          rw [← Out.ok.inj hq, List.map_cons, List.sum_cons, c1 p hr, c2 ps ht]
      | thrown x =>
        rw [ht] at e2
        refine ⟨n1 + n2, h2, ?_, (g1.trans g2).of_eq (points_add _ _), fun qs hq => ?_⟩
        · rw [hu, hm_ok e1, hm_thrown e2, Out.mapM_cons, hr, Out.ok_bind, ht]
          rfl
        · rw [Out.mapM_cons, hr, Out.ok_bind, ht] at hq
          cases hq
      | ub =>
        rw [ht] at e2
        refine ⟨n1 + n2, h2, ?_, (g1.trans g2).of_eq (points_add _ _), fun qs hq => ?_⟩
        · rw [hu, hm_ok e1, hm_ub e2, Out.mapM_cons, hr, Out.ok_bind, ht]
          rfl
        · rw [Out.mapM_cons, hr, Out.ok_bind, ht] at hq
          cases hq
    | thrown x =>
      rw [hr] at e1
      refine ⟨n1, h1, ?_, g1, fun qs hq => ?_⟩
      · rw [hu, hm_thrown e1, Out.mapM_cons, hr]
        rfl
      · rw [Out.mapM_cons, hr] at hq
        cases hq
    | ub =>
      rw [hr] at e1
      refine ⟨n1, h1, ?_, g1, fun qs hq => ?_⟩
      · rw [hu, hm_ub e1, Out.mapM_cons, hr]
        rfl
      · rw [Out.mapM_cons, hr] at hq
        cases hq

/-- The vertices of facets. -/
def corners (fs : List (FacePrint K)) : Nat := geometry fs .ogrPoint

theorem facetOfOgr_grows (x : Feature K) {h : Heap} (hs : Sound h) :
    ∃ (n : Nat) (h' : Heap), facetOfOgr x h = (FacePrint.ofOgr x, h') ∧ Grows h h' (some' .ogrPoint n) ∧
      ∀ f, FacePrint.ofOgr x = .ok f → n = corners [f] := by
  unfold facetOfOgr FacePrint.ofOgr
  cases hx : x.rings with
  | nil => exact ⟨0, h, rfl, (Grows.refl hs).of_eq points_zero, fun f hf => by cases hf⟩
  | cons r rs =>
    dsimp only
    obtain ⟨n1, h1, e1, g1, c1⟩ := ringsOfOgr_grows rs hs
    obtain ⟨n2, h2, e2, g2, c2⟩ := ringOfOgr_grows r g1.sound
    cases ht : Out.mapM ringFromOgr rs with
    | ok ps =>
      rw [ht] at e1
      refine ⟨n1 + n2, h2, ?_, (g1.trans g2).of_eq (points_add _ _), fun f hf => ?_⟩
      · rw [hm_ok e1, Out.ok_bind]
        cases hr : ringFromOgr r with
        | ok p => rw [hr] at e2; rw [hm_ok e2]; rfl
        | thrown t => rw [hr] at e2; rw [hm_thrown e2]; rfl
        | ub => rw [hr] at e2; rw [hm_ub e2]; rfl
      · rw [Out.ok_bind] at hf
        cases hr : ringFromOgr r with
        | ok p =>
          rw [hr] at hf
          rw [← Out.ok.inj hf, c1 ps ht, c2 p hr]
          simp [corners, geometry]
          omega
        | thrown t => rw [hr] at hf; cases hf
        | ub => rw [hr] at hf; cases hf
    | thrown t =>
      rw [ht] at e1
      exact ⟨n1, h1, by rw [hm_thrown e1]; rfl, g1, fun f hf => by cases hf⟩
    | ub =>
      rw [ht] at e1
      exact ⟨n1, h1, by rw [hm_ub e1]; rfl, g1, fun f hf => by cases hf⟩

theorem corners_append (fs gs : List (FacePrint K)) : corners (fs ++ gs) = corners fs + corners gs := by
  simp [corners, geometry]

theorem brickOfOgr_grows (xs : List (Feature K)) (b : Brick K) {h : Heap} (hs : Sound h) :
    ∃ (n m : Nat) (h' : Heap), brickOfOgr xs b h = (Brick.ofOgr xs b, h') ∧ Grows h h' (some' .ogrPoint n + some' .ogrFeature m) ∧
      (∀ b', Brick.ofOgr xs b = .ok b' → m = 0 ∧ corners b.faces + n = corners b'.faces) ∧ ((∀ b', Brick.ofOgr xs b ≠ .ok b') → m = 1) := by
  induction xs generalizing h b with
  | nil =>
    refine ⟨0, 0, h, rfl, (Grows.refl hs).of_eq (by funext j; simp [some']), fun b' hb => ?_, fun hb => absurd rfl (hb b)⟩
    rw [← Out.ok.inj hb]
    exact ⟨rfl, rfl⟩
  | cons x xs ih =>
    have g0 := alloc_grows .ogrFeature hs
    obtain ⟨n1, h1, e1, g1, c1⟩ := facetOfOgr_grows x g0.sound
    have m1 : (h.next, Kind.ogrFeature) ∈ h1.live := g1.kept _ List.mem_cons_self
    have hu : ∀ y : Heap, brickOfOgr (x :: xs) b y = (alloc .ogrFeature >>= fun a => facetOfOgr x >>= fun f => release a >>= fun _ =>
      brickOfOgr xs ⟨Box2.union b.bbox f.bbox, b.faces ++ [f]⟩) y := fun _ => rfl
    have hv : Brick.ofOgr (x :: xs) b = (FacePrint.ofOgr x >>= fun f => Brick.ofOgr xs ⟨Box2.union b.bbox f.bbox, b.faces ++ [f]⟩) := rfl
    cases hx : FacePrint.ofOgr x with
    | ok f =>
      rw [hx] at e1
      have g2 := (g0.trans g1).release (d := some' .ogrPoint n1) m1 (le_refl _) hs (by rw [add_comm])
      obtain ⟨n2, m2, h2, e2, g3, ok2, no2⟩ := ih ⟨Box2.union b.bbox f.bbox, b.faces ++ [f]⟩ g2.sound
      refine ⟨n1 + n2, m2, h2, ?_, (g2.trans g3).of_eq (by rw [← add_assoc, points_add]), fun b' hb => ?_, fun hb => no2 fun b' e => hb b' ?_⟩
      · rw [hu, hm_ok (x := alloc .ogrFeature) rfl, hm_ok e1, hm_ok (release_ok m1), e2, hv, hx, Out.ok_bind]
      · rw [hv, hx, Out.ok_bind] at hb
        obtain ⟨z, q⟩ := ok2 b' hb
        refine ⟨z, ?_⟩
        rw [← q, corners_append, c1 f hx]
        omega
      · rw [hv, hx, Out.ok_bind]; exact e
    | thrown t =>
      rw [hx] at e1
      refine ⟨n1, 1, h1, ?_, (g0.trans g1).of_eq (add_comm _ _), fun b' hb => ?_, fun _ => rfl⟩
      · rw [hu, hm_ok (x := alloc .ogrFeature) rfl, hm_thrown e1, hv, hx]; rfl
      · rw [hv, hx] at hb; cases hb
    | ub =>
      rw [hx] at e1
      refine ⟨n1, 1, h1, ?_, (g0.trans g1).of_eq (add_comm _ _), fun b' hb => ?_, fun _ => rfl⟩
      · rw [hu, hm_ok (x := alloc .ogrFeature) rfl, hm_ub e1, hv, hx]; rfl
      · rw [hv, hx] at hb; cases hb

/-- A vector file that GDAL opens. -/
theorem vectorRead_opened (G : Gdal K) (modes : Modes) (p : Path) (w : World) (hm : canRead modes = true) {l : Layer K}
    (ho : gdalOpen G.readShp p w = .ok l) {h : Heap} (hs : Sound h) :
    ∃ (n : Nat) (h' : Heap), vectorRead G modes p w h = (City.vectorRead G modes p w, h') ∧
      ((∃ f, City.vectorRead G modes p w = .ok f ∧ n = corners f.brick.faces ∧ Grows h h' (some' .ogrPoint n)) ∨
        ((∀ f, City.vectorRead G modes p w ≠ .ok f) ∧ Grows h h' (some' .ogrPoint n + some' .ogrFeature 1 + some' .dataset 1))) := by
  have g0 := alloc_grows .dataset hs
  obtain ⟨n, m, h1, e1, g1, ok1, no1⟩ := brickOfOgr_grows l.features Brick.empty g0.sound
  have m1 : (h.next, Kind.dataset) ∈ h1.live := g1.kept _ List.mem_cons_self
  have hv : City.vectorRead G modes p w = (Brick.ofOgr l.features Brick.empty >>= fun b =>
      .ok ⟨stem p, ⟨0, 0, 0⟩, if G.geog (some l.epsg) > 0 then (G.geog (some l.epsg)).toNat % 2 ^ 16 else 2154, b⟩) := by
    unfold City.vectorRead
    rw [if_pos hm, ho]
    rfl
  have hu : vectorRead G modes p w h = (brickOfOgr l.features Brick.empty >>= fun b => release h.next >>= fun _ =>
      pure ⟨stem p, ⟨0, 0, 0⟩, if G.geog (some l.epsg) > 0 then (G.geog (some l.epsg)).toNat % 2 ^ 16 else 2154, b⟩)
        ⟨h.next + 1, (h.next, .dataset) :: h.live, h.meshes⟩ := by
    unfold vectorRead
    rw [if_pos hm, ho]
    rfl
  rw [hu, hv]
  cases hb : Brick.ofOgr l.features Brick.empty with
  | ok b =>
    rw [hb] at e1
    obtain ⟨z, q⟩ := ok1 b hb
    refine ⟨n, without h1 h.next, ?_, Or.inl ⟨_, rfl, ?_, (g0.trans g1).release m1 (le_refl _) hs ?_⟩⟩
    · rw [hm_ok e1, hm_ok (release_ok m1)]
      rfl
    · rw [← q]
      simp [corners, geometry, Brick.empty]
    · rw [z]
      funext j
      cases j <;> simp [some']
  | thrown t =>
    rw [hb] at e1
    have z := no1 (by rw [hb]; simp)
    refine ⟨n, h1, ?_, Or.inr ⟨fun f => by simp, (g0.trans g1).of_eq (by rw [z]; exact add_comm _ _)⟩⟩
    rw [hm_thrown e1]
    rfl
  | ub =>
    rw [hb] at e1
    have z := no1 (by rw [hb]; simp)
    refine ⟨n, h1, ?_, Or.inr ⟨fun f => by simp, (g0.trans g1).of_eq (by rw [z]; exact add_comm _ _)⟩⟩
    rw [hm_ub e1]
    rfl

end
end City.Mem
