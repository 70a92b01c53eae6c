import Verif.Lemmas.Face
/-!
Properties C05, C06, C07, C08 and C11: construction, orientation, rotation, equality and index rewriting of faces.
-/
namespace City.Props
open City Spec

/-- C05: the list constructor succeeds exactly on at least three indexes, and stores them unchanged. -/
theorem C05_ctor (l : List Nat) :
    (3 ≤ l.length → Face.mk? l = .ok ⟨l⟩) ∧ (l.length < 3 → Face.mk? l = .thrown .logicError) := by
  constructor
  · intro h; rw [Face.mk?, if_neg (by omega)]
  · intro h; rw [Face.mk?, if_pos h]

/-- C05: a face that came out of the list constructor has degree at least 3 and the given indexes. -/
theorem C05_ctor_degree (l : List Nat) (f : Face) (h : Face.mk? l = .ok f) :
    3 ≤ f.degree ∧ f.points = l := by
  unfold Face.mk? at h
  split at h
  · cases h
  · cases h; exact ⟨by simp only [Face.degree]; omega, rfl⟩

/-- C05: the three index constructor gives `(a,b,c)`, or the opposite orientation of the same triangle. -/
theorem C05_ctor_triple (a b c : Nat) :
    (Face.ofTriple a b c true).points = [a, b, c] ∧ (Face.ofTriple a b c false).points = [a, c, b] ∧
    Face.invert (Face.ofTriple a b c true) = .ok (Face.ofTriple a b c false) := ⟨rfl, rfl, rfl⟩

example : Face.mk? [4, 7, 9, 2] = .ok ⟨[4, 7, 9, 2]⟩ := by decide

/-- C06: inverting is defined on non empty faces only, keeps the first vertex and the multiset of vertices, and
traverses exactly the opposite of every directed edge (same multiplicities). -/
theorem C06_invert (f g : Face) (h : Face.invert f = .ok g) :
    g.points.head? = f.points.head? ∧ g.points.Perm f.points ∧
    (boundary g.points).Perm ((boundary f.points).map Prod.swap) := by
  unfold Face.invert at h
  split at h
  · cases h
  · rename_i a t ht
    cases h
    refine ⟨by simp [ht], by simp [ht, List.reverse_perm], ?_⟩
    rw [ht, boundary_reverse]
    exact List.reverse_perm _

/-- C06: inverting twice is the identity. -/
theorem C06_invert_involutive (f g : Face) (h : Face.invert f = .ok g) : Face.invert g = .ok f := by
  obtain ⟨p⟩ := f
  unfold Face.invert at h
  split at h
  · cases h
  · rename_i a t ht
    cases h
    simp only at ht
    subst ht
    simp [Face.invert]

/-- C06: inversion is undefined exactly on the empty face. -/
theorem C06_invert_ub (f : Face) : Face.invert f = .ub ↔ f.points = [] := by
  unfold Face.invert; split <;> simp_all

example : Face.invert ⟨[1, 2, 3, 4]⟩ = .ok ⟨[1, 4, 3, 2]⟩ := by decide

/-- C07: `rotate(n)` has a meaning exactly for `0 ≤ n ≤ degree`; the result is the list rotated to the left. -/
theorem C07_rotate_domain (f : Face) (n : Int) :
    (Face.rotateBy f n ≠ .ub ↔ 0 ≤ n ∧ n ≤ f.degree) ∧
    ∀ g, Face.rotateBy f n = .ok g → g.points = f.points.rotate n.toNat := by
  unfold Face.rotateBy Face.degree
  constructor
  · split <;> simp_all
  · intro g hg
    split at hg
    · rename_i h
      cases hg
      rw [List.rotate_eq_drop_append_take (by omega)]
    · cases hg

/-- C07: rotation keeps the cycle of directed edges, the degree and the multiset of vertices. -/
theorem C07_rotate_boundary (f g : Face) (n : Int) (h : Face.rotateBy f n = .ok g) :
    boundary g.points ~r boundary f.points ∧ g.degree = f.degree ∧ g.points.Perm f.points := by
  have hg := (C07_rotate_domain f n).2 g h
  rw [hg, boundary_rotate]
  refine ⟨List.IsRotated.forall _ _, by simp [Face.degree, hg], List.rotate_perm _ _⟩

/-- C07: rotations compose modulo the degree: `rotate(m)` after `rotate(n)` is `rotate((m+n) mod degree)`. -/
theorem C07_rotate_compose (f g k : Face) (n m : Int)
    (h : Face.rotateBy f n = .ok g) (h' : Face.rotateBy g m = .ok k) :
    Face.rotateBy f ((n + m) % f.degree) = .ok k := by
  have hd := (C07_rotate_domain f n).1.1 (by simp [h])
  have hd' := (C07_rotate_domain g m).1.1 (by simp [h'])
  have e1 := (C07_rotate_domain f n).2 g h
  have e2 := (C07_rotate_domain g m).2 k h'
  by_cases h0 : f.points = []
  · have hn : n = 0 := by simp [Face.degree, h0] at hd; omega
    have hg : g.points = [] := by rw [e1, h0]; simp
    have hm : m = 0 := by simp [Face.degree, hg] at hd'; omega
    have hk : k.points = [] := by rw [e2, hg]; simp
    obtain ⟨p⟩ := f; obtain ⟨q⟩ := k
    simp only at h0 hk
    subst h0 hk hn hm
    simp [Face.rotateBy, Face.degree]
  · have hpos : 0 < f.points.length := List.length_pos_iff.2 h0
    have hp : (0 : Int) < f.degree := by unfold Face.degree; omega
    have hlo := Int.emod_nonneg (n + m) (ne_of_gt hp)
    have hhi := Int.emod_lt_of_pos (n + m) hp
    unfold Face.rotateBy
    rw [if_pos ⟨hlo, le_of_lt hhi⟩, ← List.rotate_eq_drop_append_take (by unfold Face.degree at *; omega)]
    congr 1
    ext1
    have : ((n + m) % (f.degree : Int)).toNat = (n.toNat + m.toNat) % f.points.length := by
      have e : (n + m) = ((n.toNat + m.toNat : Nat) : Int) := by omega
      rw [e, ← Int.natCast_mod]; rfl
    rw [this, List.rotate_mod, e2, e1, List.rotate_rotate]

/-- C07: rotating by the degree is the identity, and so is rotating one step `degree` times. -/
theorem C07_rotate_full (f : Face) : Face.rotateBy f f.degree = .ok f := by
  obtain ⟨p⟩ := f
  simp [Face.rotateBy, Face.degree]

/-- One-step rotation, iterated. -/
def rotateIter : Nat → Face → Out Face
  | 0, f => .ok f
  | n + 1, f => do
    let g ← Face.rotate f
    rotateIter n g

theorem C07_rotate_iter (f : Face) (hne : f.points ≠ []) (n : Nat) :
    rotateIter n f = .ok ⟨f.points.rotate n⟩ := by
  induction n generalizing f with
  | zero => simp [rotateIter]
  | succ n ih =>
    have hp : 0 < f.points.length := List.length_pos_iff.2 hne
    have : Face.rotate f = .ok ⟨f.points.rotate 1⟩ := by
      unfold Face.rotate Face.rotateBy
      rw [if_pos (by omega), List.rotate_eq_drop_append_take (by omega)]
      rfl
    rw [rotateIter, this, Out.ok_bind, ih _ (by simpa using hne)]
    simp [List.rotate_rotate, Nat.add_comm]

theorem C07_rotate_iter_degree (f : Face) (hne : f.points ≠ []) : rotateIter f.degree f = .ok f := by
  rw [C07_rotate_iter f hne]; simp [Face.degree]

/-- C07: each rotation of a face with distinct vertices is `==` to it, both ways round. -/
theorem C07_rotate_eq (f g : Face) (n : Int) (hne : f.points ≠ []) (hn : f.points.Nodup)
    (h : Face.rotateBy f n = .ok g) : Face.eq f g = .ok true ∧ Face.eq g f = .ok true := by
  have e := (C07_rotate_domain f n).2 g h
  have hr : g.points ~r f.points := by rw [e]; exact List.IsRotated.forall _ _
  refine ⟨face_eq_of_isRotated hne (hr.nodup_iff.2 hn) hr.symm, face_eq_of_isRotated ?_ hn hr⟩
  rw [e]; simpa using hne

example : Face.rotateBy ⟨[1, 2, 3, 4]⟩ 3 = .ok ⟨[4, 1, 2, 3]⟩ := by decide

/-- C08 (full statement, false of the code, see the refutations below). -/
def C08_full : Prop :=
  ∀ f g : Face, (Face.eq f g = .ok true ↔ f.points ~r g.points) ∧
    (Face.ne f g = .ok true ↔ Face.eq f g = .ok false)

/-- C08: on faces with distinct vertices, `==` decides exactly equality of cyclic sequences.
Missing from the full property: faces that repeat an index, and the empty face. -/
theorem C08_eq_iff_rotated_partial (f g : Face) (hne : f.points ≠ []) (hg : g.points.Nodup) :
    (Face.eq f g = .ok true ↔ f.points ~r g.points) ∧
    (Face.eq f g = .ok false ↔ ¬ f.points ~r g.points) := by
  have key : Face.eq f g = .ok true ↔ f.points ~r g.points :=
    ⟨face_eq_isRotated, face_eq_of_isRotated hne hg⟩
  refine ⟨key, ?_⟩
  rw [← key]
  obtain ⟨b, hb⟩ := face_eq_ok (g := g) hne
  rw [hb]; cases b <;> simp

/-- C08: `==` is an equivalence relation on non empty faces with distinct vertices. -/
theorem C08_equivalence_partial :
    (∀ f : Face, f.points ≠ [] → Face.eq f f = .ok true) ∧
    (∀ f g : Face, f.points.Nodup → Face.eq f g = .ok true → Face.eq g f = .ok true) ∧
    (∀ f g h : Face, h.points.Nodup → Face.eq f g = .ok true → Face.eq g h = .ok true →
      Face.eq f h = .ok true) := by
  have ne_of : ∀ {f g : Face}, Face.eq f g = .ok true → f.points ≠ [] := by
    intro f g h h0
    obtain ⟨a, ha, -⟩ := face_eq_true_iff.1 h
    simp [h0] at ha
  refine ⟨?_, ?_, ?_⟩
  · intro f hne
    rw [face_eq_true_iff]
    cases hf : f.points with
    | nil => exact absurd hf hne
    | cons a t => exact ⟨a, rfl, by simp, by simp⟩
  · intro f g hn h
    have hr := face_eq_isRotated h
    refine face_eq_of_isRotated ?_ hn hr.symm
    intro h0
    rw [h0] at hr
    exact ne_of h (List.isRotated_nil_iff.1 hr)
  · intro f g h hn h1 h2
    exact face_eq_of_isRotated (ne_of h1) hn ((face_eq_isRotated h1).trans (face_eq_isRotated h2))

/-- C08: whatever the faces, `==` never identifies faces that are not rotations of one another, and faces of
different degrees are different. -/
theorem C08_eq_sound (f g : Face) (h : Face.eq f g = .ok true) : f.points ~r g.points :=
  face_eq_isRotated h

/-- C08: `!=` is the negation of `==` on faces with distinct vertices. -/
theorem C08_ne_partial (f g : Face) (hf : f.points.Nodup) (hg : g.points.Nodup)
    (hne : f.points ≠ []) (hne' : g.points ≠ []) (b : Bool) :
    Face.ne f g = .ok b ↔ Face.eq f g = .ok (!b) := by
  have k1 := C08_eq_iff_rotated_partial f g hne hg
  have k2 := C08_eq_iff_rotated_partial g f hne' hf
  obtain ⟨c, hc⟩ := face_eq_ok (g := f) hne'
  unfold Face.ne
  rw [hc] at k2 ⊢
  rw [Out.ok_bind]
  have hs : f.points ~r g.points ↔ g.points ~r f.points := ⟨List.IsRotated.symm, List.IsRotated.symm⟩
  cases c <;> cases b <;> simp_all

/-- C08 refuted: with a repeated index `==` is neither symmetric nor transitive, `!=` is not its
negation, and comparing two empty faces throws. -/
theorem C08_refuted : ¬ C08_full ∧
    (∃ f g : Face, Face.eq f g = .ok true ∧ Face.eq g f = .ok false) ∧
    (∃ f g h : Face, Face.eq f g = .ok true ∧ Face.eq g h = .ok true ∧ Face.eq f h = .ok false) ∧
    (∃ f g : Face, Face.eq f g = .ok true ∧ Face.ne f g = .ok true) ∧
    Face.eq ⟨[]⟩ ⟨[]⟩ = .thrown .outOfRange := by
  refine ⟨?_, ⟨⟨[1, 0, 0]⟩, ⟨[0, 1, 0]⟩, by decide, by decide⟩,
    ⟨⟨[0, 0, 1]⟩, ⟨[1, 0, 0]⟩, ⟨[0, 1, 0]⟩, by decide, by decide, by decide⟩,
    ⟨⟨[1, 0, 0]⟩, ⟨[0, 1, 0]⟩, by decide, by decide⟩, rfl⟩
  intro h
  have := (h ⟨[0, 1, 0]⟩ ⟨[1, 0, 0]⟩).1.2 ⟨1, by decide⟩
  exact absurd this (by decide)

example : Face.eq ⟨[3, 1, 2]⟩ ⟨[1, 2, 3]⟩ = .ok true := by decide

/-- C11: `offset(d)` adds `d` to each index and keeps the degree; offsets compose additively. -/
theorem C11_offset (f : Face) (d e i : Nat) :
    (f.offset d).points[i]? = (f.points[i]?).map (· + d) ∧ (f.offset d).degree = f.degree ∧
    (f.offset d).offset e = f.offset (d + e) ∧ f.offset 0 = f := by
  obtain ⟨p⟩ := f
  simp [Face.offset, Face.degree, Function.comp_def, Nat.add_assoc]

/-- C11: when the index does not occur, `overide` returns false and changes nothing. -/
theorem C11_overide_absent (f : Face) (i j : Nat) (h : i ∉ f.points) : f.overide i j = (f, false) := by
  obtain ⟨p⟩ := f
  have : Face.overideList i j p = (p, false) := by
    simp only at h
    induction p with
    | nil => rfl
    | cons a t ih =>
      simp only [List.mem_cons, not_or] at h
      simp [Face.overideList, ih h.2, Ne.symm h.1]
  simp [Face.overide, this]

/-- C11: when the index occurs, `overide` returns true and replaces exactly its first occurrence. -/
theorem C11_overide_present (f : Face) (i j : Nat) (pre post : List Nat)
    (h : f.points = pre ++ i :: post) (hfirst : i ∉ pre) :
    f.overide i j = (⟨pre ++ j :: post⟩, true) := by
  obtain ⟨p⟩ := f
  simp only at h
  subst h
  have : Face.overideList i j (pre ++ i :: post) = (pre ++ j :: post, true) := by
    induction pre with
    | nil => simp [Face.overideList]
    | cons a t ih =>
      simp only [List.mem_cons, not_or] at hfirst
      simp [Face.overideList, ih hfirst.2, Ne.symm hfirst.1]
  simp [Face.overide, this]

example : (⟨[5, 6, 5, 7]⟩ : Face).overide 5 9 = (⟨[9, 6, 5, 7]⟩, true) := by decide

end City.Props
