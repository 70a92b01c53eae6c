import Verif.Model.Mesh3ds
import Verif.Props.Convex
/-! Helper lemmas on `Mesh::to_3ds`. -/
namespace City.Props
open City Spec V3

theorem faceSlots_foldl (fs : List Face) (s : Int) :
    fs.foldl (fun s f => s + (f.points.length : Int) - 2) s = s + faceSlots fs := by
  unfold faceSlots
  induction fs generalizing s with
  | nil => simp
  | cons f fs ih =>
    rw [List.foldl_cons, List.foldl_cons, ih, ih (0 + _ - 2)]; omega

theorem faceSlots_cons (f : Face) (fs : List Face) :
    faceSlots (f :: fs) = (f.points.length : Int) - 2 + faceSlots fs := by
  have : faceSlots (f :: fs) = fs.foldl (fun s f => s + (f.points.length : Int) - 2) (0 + f.points.length - 2) := rfl
  rw [this, faceSlots_foldl]; omega

theorem faceSlots_ge (fs : List Face) (h : ∀ f ∈ fs, 3 ≤ f.degree) : (fs.length : Int) ≤ faceSlots fs := by
  induction fs with
  | nil => simp [faceSlots]
  | cons f fs ih =>
    have := ih fun f hf => h f (by simp [hf])
    have h3 := h f (by simp)
    unfold Face.degree at h3
    rw [faceSlots_cons]; simp only [List.length_cons]; omega

theorem fill_ok (co : List (V3 ℝ)) (hlen : co.length < 65536) (slots : Int) :
    ∀ (fs : List Face) (k : Nat), (k : Int) + fs.length ≤ slots →
      (∀ f ∈ fs, 3 ≤ f.degree ∧ f.degree ≤ co.length ∧ (∀ i ∈ f.points, i < co.length) ∧
        Face.isConvex f co = .ok true) →
      ∃ ts, fillSlots co slots k fs = .ok ts ∧
        List.Forall₂ (fun f t => f.points.take 3 = [t.a, t.b, t.c] ∧
          t.normal = normalTo (pt co t.a) (pt co t.b) (pt co t.c)) fs ts := by
  intro fs
  induction fs with
  | nil => intro k _ _; exact ⟨[], rfl, .nil⟩
  | cons f fs ih =>
    intro k hk h
    obtain ⟨h3, hd, hv, hc⟩ := h f (by simp)
    obtain ⟨ts, hts⟩ := (C10_errors f co).2.2.2 hd hv hc
    obtain ⟨a, b, c, t, t0, ts', hp, rfl, rfl⟩ := to3ds_first hts
    have hw : ∀ i ∈ f.points, word i = i := fun i hi => Nat.mod_eq_of_lt (lt_trans (hv i hi) hlen)
    rw [hp] at hw
    rw [hw a (by simp), hw b (by simp), hw c (by simp)] at hts
    obtain ⟨rest, hrest, hF⟩ := ih (k + 1) (by simp at hk; push_cast; omega) (fun f hf => h f (by simp [hf]))
    refine ⟨⟨a, b, c, normalTo (pt co a) (pt co b) (pt co c)⟩ :: rest, ?_, ?_⟩
    · rw [fillSlots, hts, Out.ok_bind, Out.idx_ok (by simp), Out.ok_bind, if_pos (by simp at hk; omega), hrest,
        Out.ok_bind]
      rfl
    · exact .cons ⟨by simp [hp], rfl⟩ hF

theorem Forall₂.length_le {α β : Type} {R : α → β → Prop} {l : List α} {m : List β} (h : List.Forall₂ R l m) :
    m.length = l.length := h.length_eq.symm

theorem det_normalTo (p q r : V3 ℝ) :
    determinant (sub q p) (sub r q) (normalTo p q r) = norm (cross (sub q p) (sub r q)) := by
  set v := cross (vec p q) (vec q r) with hv
  have hv' : cross (sub q p) (sub r q) = v := rfl
  have e : determinant (sub q p) (sub r q) (normalTo p q r) = dot v v / norm v := by
    have : determinant (sub q p) (sub r q) (normalTo p q r) = dot v (normalTo p q r) := by
      rw [← hv']; simp only [determinant, dot, cross]; ring
    rw [this]
    simp only [normalTo, divs, dot, ← hv]
    ring
  have hsq : norm v * norm v = dot v v := by
    apply Real.mul_self_sqrt
    simp only [dot]
    nlinarith [mul_self_nonneg v.x, mul_self_nonneg v.y, mul_self_nonneg v.z]
  rw [e, hv', ← hsq]
  by_cases h0 : norm v = 0
  · simp [h0]
  · field_simp

end City.Props
