import Verif.Spec.Bbox
import Mathlib.Order.Basic
import Mathlib.Data.List.Perm.Basic
namespace City.Spec
open City

theorem Le.refl {a : Dbl} (h : a ≠ .nan) : Le a a := by cases a <;> simp_all [Le]
theorem Le.trans {a b c : Dbl} (h : Le a b) (k : Le b c) : Le a c := by
  cases a <;> cases b <;> cases c <;> simp_all [Le]
  exact _root_.le_trans h k
theorem Le.antisymm {a b : Dbl} (h : Le a b) (k : Le b a) : a = b := by
  cases a <;> cases b <;> simp_all [Le]
  exact _root_.le_antisymm h k
theorem Le.ne_left {a b : Dbl} (h : Le a b) : a ≠ .nan := by rintro rfl; exact h
theorem Le.ne_right {a b : Dbl} (h : Le a b) : b ≠ .nan := by rintro rfl; cases a <;> exact h
theorem Le.total {a b : Dbl} (ha : a ≠ .nan) (hb : b ≠ .nan) : Le a b ∨ Le b a := by
  cases a <;> cases b <;> simp_all [Le]; exact _root_.le_total _ _

theorem lt_iff {a b : Dbl} (ha : a ≠ .nan) (hb : b ≠ .nan) : Dbl.lt a b = true ↔ ¬ Le b a := by
  cases a <;> cases b <;> simp_all [Le, Dbl.lt]

theorem cmin_ne {a b : Dbl} (ha : a ≠ .nan) (hb : b ≠ .nan) : Dbl.cmin a b ≠ .nan := by
  unfold Dbl.cmin; split <;> assumption
theorem cmax_ne {a b : Dbl} (ha : a ≠ .nan) (hb : b ≠ .nan) : Dbl.cmax a b ≠ .nan := by
  unfold Dbl.cmax; split <;> assumption

theorem le_cmin {a b c : Dbl} (ha : a ≠ .nan) (hb : b ≠ .nan) :
    Le c (Dbl.cmin a b) ↔ Le c a ∧ Le c b := by
  unfold Dbl.cmin
  split
  · rename_i h
    rw [lt_iff hb ha] at h
    have hba := (Le.total ha hb).resolve_left h
    exact ⟨fun k => ⟨k.trans hba, k⟩, fun k => k.2⟩
  · rename_i h
    rw [lt_iff hb ha, not_not] at h
    exact ⟨fun k => ⟨k, k.trans h⟩, fun k => k.1⟩

theorem cmax_le {a b c : Dbl} (ha : a ≠ .nan) (hb : b ≠ .nan) :
    Le (Dbl.cmax a b) c ↔ Le a c ∧ Le b c := by
  unfold Dbl.cmax
  split
  · rename_i h
    rw [lt_iff ha hb] at h
    have hba := (Le.total ha hb).resolve_right h
    exact ⟨fun k => ⟨hba.trans k, k⟩, fun k => k.2⟩
  · rename_i h
    rw [lt_iff ha hb, not_not] at h
    exact ⟨fun k => ⟨k, h.trans k⟩, fun k => k.1⟩

theorem cmin_le_left {a b : Dbl} (ha : a ≠ .nan) (hb : b ≠ .nan) : Le (Dbl.cmin a b) a :=
  ((le_cmin ha hb).1 (Le.refl (cmin_ne ha hb))).1
theorem cmin_le_right {a b : Dbl} (ha : a ≠ .nan) (hb : b ≠ .nan) : Le (Dbl.cmin a b) b :=
  ((le_cmin ha hb).1 (Le.refl (cmin_ne ha hb))).2
theorem le_cmax_left {a b : Dbl} (ha : a ≠ .nan) (hb : b ≠ .nan) : Le a (Dbl.cmax a b) :=
  ((cmax_le ha hb).1 (Le.refl (cmax_ne ha hb))).1
theorem le_cmax_right {a b : Dbl} (ha : a ≠ .nan) (hb : b ≠ .nan) : Le b (Dbl.cmax a b) :=
  ((cmax_le ha hb).1 (Le.refl (cmax_ne ha hb))).2

theorem BoxReal.union {a b : Bbox} (ha : BoxReal a) (hb : BoxReal b) : BoxReal (a.union b) := by
  obtain ⟨a1, a2, a3, a4, a5, a6⟩ := ha
  obtain ⟨b1, b2, b3, b4, b5, b6⟩ := hb
  exact ⟨cmin_ne a1 b1, cmax_ne a2 b2, cmin_ne a3 b3, cmax_ne a4 b4, cmin_ne a5 b5, cmax_ne a6 b6⟩

theorem BoxReal.empty : BoxReal Bbox.empty := by simp [BoxReal, Bbox.empty]

theorem Inside.refl {a : Bbox} (ha : BoxReal a) : Inside a a := by
  obtain ⟨a1, a2, a3, a4, a5, a6⟩ := ha
  exact ⟨Le.refl a1, Le.refl a2, Le.refl a3, Le.refl a4, Le.refl a5, Le.refl a6⟩
theorem Inside.trans {a b c : Bbox} (h : Inside a b) (k : Inside b c) : Inside a c := by
  obtain ⟨h1, h2, h3, h4, h5, h6⟩ := h
  obtain ⟨k1, k2, k3, k4, k5, k6⟩ := k
  exact ⟨k1.trans h1, h2.trans k2, k3.trans h3, h4.trans k4, k5.trans h5, h6.trans k6⟩
theorem Inside.antisymm {a b : Bbox} (h : Inside a b) (k : Inside b a) : a = b := by
  obtain ⟨h1, h2, h3, h4, h5, h6⟩ := h
  obtain ⟨k1, k2, k3, k4, k5, k6⟩ := k
  ext1
  exacts [k1.antisymm h1, h2.antisymm k2, k3.antisymm h3, h4.antisymm k4, k5.antisymm h5, h6.antisymm k6]

theorem union_inside {a b c : Bbox} (ha : BoxReal a) (hb : BoxReal b) :
    Inside (a.union b) c ↔ Inside a c ∧ Inside b c := by
  obtain ⟨a1, a2, a3, a4, a5, a6⟩ := ha
  obtain ⟨b1, b2, b3, b4, b5, b6⟩ := hb
  simp only [Inside, Bbox.union, le_cmin a1 b1, cmax_le a2 b2, le_cmin a3 b3, cmax_le a4 b4,
    le_cmin a5 b5, cmax_le a6 b6]
  tauto

theorem inside_ofPoint {p : V3 Dbl} {b : Bbox} : Inside (Bbox.ofPoint p) b ↔ InBox p b := Iff.rfl

theorem BoxReal.ofPoint {p : V3 Dbl} (h : PtReal p) : BoxReal (Bbox.ofPoint p) :=
  ⟨h.1, h.1, h.2.1, h.2.1, h.2.2, h.2.2⟩

theorem empty_inside {b : Bbox} (hb : BoxReal b) : Inside Bbox.empty b := by
  obtain ⟨h1, h2, h3, h4, h5, h6⟩ := hb
  refine ⟨?_, ?_, ?_, ?_, ?_, ?_⟩ <;> simp only [Bbox.empty]
  · revert h1; cases b.xmin <;> simp [Le]
  · revert h2; cases b.xmax <;> simp [Le]
  · revert h3; cases b.ymin <;> simp [Le]
  · revert h4; cases b.ymax <;> simp [Le]
  · revert h5; cases b.zmin <;> simp [Le]
  · revert h6; cases b.zmax <;> simp [Le]

theorem foldl_box {ps : List (V3 Dbl)} (hp : ∀ p ∈ ps, PtReal p) :
    ∀ {b : Bbox}, BoxReal b →
      BoxReal (ps.foldl (fun b p => b.union (.ofPoint p)) b) ∧
      ∀ c, Inside (ps.foldl (fun b p => b.union (.ofPoint p)) b) c ↔
        Inside b c ∧ ∀ p ∈ ps, InBox p c := by
  induction ps with
  | nil => intro b hb; simp [hb]
  | cons p ps ih =>
    intro b hb
    have hp0 := BoxReal.ofPoint (hp p (by simp))
    have := ih (fun q hq => hp q (by simp [hq])) (hb.union hp0)
    refine ⟨this.1, fun c => ?_⟩
    rw [List.foldl_cons, this.2 c, union_inside hb hp0, inside_ofPoint]
    simp only [List.mem_cons, forall_eq_or_imp]
    tauto

theorem tight_ofPoints {ps : List (V3 Dbl)} (hp : ∀ p ∈ ps, PtReal p) :
    TightBox (Bbox.ofPoints ps) ps := by
  have h := foldl_box hp BoxReal.empty
  refine ⟨h.1, ?_, fun c hc hin => (h.2 c).2 ⟨empty_inside hc, hin⟩⟩
  exact ((h.2 _).1 (Inside.refl h.1)).2

theorem tight_unique {ps : List (V3 Dbl)} {a b : Bbox} (ha : TightBox a ps) (hb : TightBox b ps) :
    a = b :=
  Inside.antisymm (ha.2.2 b hb.1 hb.2.1) (hb.2.2 a ha.1 ha.2.1)

theorem tight_union {ps qs : List (V3 Dbl)} {a b : Bbox} (ha : TightBox a ps) (hb : TightBox b qs) :
    TightBox (a.union b) (ps ++ qs) := by
  have hu := union_inside (c := a.union b) ha.1 hb.1
  have hi := hu.1 (Inside.refl (ha.1.union hb.1))
  have mono : ∀ {p : V3 Dbl} {x y : Bbox}, InBox p x → Inside x y → InBox p y := by
    intro p x y h k
    obtain ⟨h1, h2, h3, h4, h5, h6⟩ := h
    obtain ⟨k1, k2, k3, k4, k5, k6⟩ := k
    exact ⟨k1.trans h1, h2.trans k2, k3.trans h3, h4.trans k4, k5.trans h5, h6.trans k6⟩
  refine ⟨ha.1.union hb.1, ?_, ?_⟩
  · intro p hp
    rcases List.mem_append.1 hp with hp | hp
    · exact mono (ha.2.1 p hp) hi.1
    · exact mono (hb.2.1 p hp) hi.2
  · intro c hc hin
    exact (union_inside ha.1 hb.1).2
      ⟨ha.2.2 c hc fun p hp => hin p (by simp [hp]), hb.2.2 c hc fun p hp => hin p (by simp [hp])⟩

end City.Spec
