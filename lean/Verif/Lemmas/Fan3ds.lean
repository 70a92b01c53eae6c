import Verif.Lemmas.Fan
/-! Helper lemmas on `Face::to_3ds`. -/
namespace City.Props
open City Spec V3

/-- Shape of a successful call of `to_3ds` (helper). -/
theorem to3ds_ok {f : Face} {co : List (V3 ℝ)} {ts : List Face3ds} (h : Face.to3ds f co = .ok ts) :
    ∃ a b c t, f.points = a :: b :: c :: t ∧ Face.isConvex f co = .ok true ∧
      List.Forall₂ (fun e x => Face.fanTriangle co a e = .ok x) ((b :: c :: t).zip (c :: t)) ts := by
  unfold Face.to3ds at h
  split at h
  · cases h
  · rename_i hco
    obtain ⟨b, hb, h⟩ := Out.bind_eq_ok.1 h
    cases b
    · simp at h
    · simp only [if_true] at h
      have hdeg : ¬ f.points.length < 3 := by
        intro h3
        unfold Face.isConvex at hb
        simp only at hb
        rw [if_neg hco, if_pos h3] at hb
        cases hb
      match hf : f.points with
      | [] => simp [hf] at hdeg
      | [_] => simp [hf] at hdeg
      | [_, _] => simp [hf] at hdeg
      | a :: b :: c :: t =>
        rw [hf] at h
        exact ⟨a, b, c, t, rfl, hb, Out.mapM_eq_ok.1 h⟩

theorem fanTriangle_ok {co : List (V3 ℝ)} {a : Nat} {e : Nat × Nat} {x : Face3ds}
    (h : Face.fanTriangle co a e = .ok x) :
    a < co.length ∧ e.1 < co.length ∧ e.2 < co.length ∧
    x = ⟨word a, word e.1, word e.2, normalTo (pt co a) (pt co e.1) (pt co e.2)⟩ := by
  unfold Face.fanTriangle at h
  obtain ⟨A, hA, h⟩ := Out.bind_eq_ok.1 h
  obtain ⟨B, hB, h⟩ := Out.bind_eq_ok.1 h
  obtain ⟨C, hC, h⟩ := Out.bind_eq_ok.1 h
  cases h
  rw [Out.atOr_eq_ok] at hA hB hC
  obtain ⟨h1, rfl⟩ := List.getElem?_eq_some_iff.1 hA
  obtain ⟨h2, rfl⟩ := List.getElem?_eq_some_iff.1 hB
  obtain ⟨h3, rfl⟩ := List.getElem?_eq_some_iff.1 hC
  refine ⟨h1, h2, h3, ?_⟩
  simp [pt, h1, h2, h3]

theorem tri_eq_fan {f : Face} {co : List (V3 ℝ)} {ts : List Face3ds} (h : Face.to3ds f co = .ok ts)
    (h16 : ∀ i ∈ f.points, i < 65536) :
    ∃ a b c t, f.points = a :: b :: c :: t ∧ ts.map tri = fan a (b :: c :: t) := by
  obtain ⟨a, b, c, t, hf, -, hts⟩ := to3ds_ok h
  refine ⟨a, b, c, t, hf, ?_⟩
  have hw : ∀ i ∈ f.points, word i = i := fun i hi => Nat.mod_eq_of_lt (h16 i hi)
  rw [hf] at hw
  have hmem : ∀ e ∈ (b :: c :: t).zip (c :: t), e.1 ∈ a :: b :: c :: t ∧ e.2 ∈ a :: b :: c :: t := by
    intro e he
    exact ⟨List.mem_cons_of_mem _ (List.of_mem_zip he).1,
      List.mem_cons_of_mem _ (List.mem_cons_of_mem _ (List.of_mem_zip he).2)⟩
  show ts.map tri = ((b :: c :: t).zip (c :: t)).map _
  clear h
  generalize (b :: c :: t).zip (c :: t) = l at hts hmem
  induction hts with
  | nil => rfl
  | cons hx _ ih =>
    rename_i e _ _ _ _
    obtain ⟨-, -, -, rfl⟩ := fanTriangle_ok hx
    have hm := hmem e (by simp)
    rw [List.map_cons, List.map_cons, ih (fun e he => hmem e (by simp [he]))]
    simp [tri, hw a (by simp), hw _ hm.1, hw _ hm.2]

/-- First triangle and its normal. -/
theorem to3ds_first {f : Face} {co : List (V3 ℝ)} {ts : List Face3ds} (h : Face.to3ds f co = .ok ts) :
    ∃ a b c t t0 ts', f.points = a :: b :: c :: t ∧ ts = t0 :: ts' ∧
      t0 = ⟨word a, word b, word c, normalTo (pt co a) (pt co b) (pt co c)⟩ := by
  obtain ⟨a, b, c, t, hf, -, hts⟩ := to3ds_ok h
  rw [List.zip_cons_cons] at hts
  cases hts with
  | cons h1 h2 =>
    obtain ⟨-, -, -, rfl⟩ := fanTriangle_ok h1
    exact ⟨a, b, c, t, _, _, hf, rfl, rfl⟩

end City.Props
