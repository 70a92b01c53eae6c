import Verif.Model.RasterMean
import Verif.Spec.RasterMean
import Verif.Lemmas.Raster
import Verif.Lemmas.RasterDbl
import Mathlib.Tactic.Linarith
import Mathlib.Tactic.Positivity
import Mathlib.Tactic.FieldSimp
import Mathlib.Tactic.Ring
/-
Lemmas about the rounded running means of the pixels.
-/
namespace City
open City.Spec FacePrint
set_option linter.unusedSectionVars false

section
variable {K : Type} [Field K] [LinearOrder K] [IsStrictOrderedRing K]

/-- A rounding with relative error `u` and absolute error `e`. -/
def Rounds (rm : K → K) (u e : K) : Prop := ∀ x, |rm x - x| ≤ u * |x| + e

theorem Rounds.from {rm : K → K} {u e : K} (R : Rounds rm u e) (hu : 0 ≤ u) {x y d X : K} (h : |y - x| ≤ d) (hX : |x| ≤ X) :
    |rm y - x| ≤ (1 + u) * d + u * X + e := by
  have h1 := R y
  have h2 : |y| ≤ X + d := by
    have := abs_add_le (y - x) x
    rw [sub_add_cancel] at this
    linarith
  have h3 : |rm y - x| ≤ |rm y - y| + |y - x| := abs_sub_le ..
  have h4 : u * |y| ≤ u * (X + d) := mul_le_mul_of_nonneg_left h2 hu
  nlinarith

/-- One more height for a pixel with `n` heights, whose value is `v`. -/
def nextD (rm : K → K) (v : K) (n : Nat) (z : K) : K := rm (rm (rm (v * (n : K)) + z) / ((n : K) + 1))

/-- The value of a pixel after the heights `zs`, the last one first in the list. -/
def valueD (rm : K → K) : List K → K
  | [] => 0
  | z :: zs => nextD rm (valueD rm zs) zs.length z

theorem next_err {rm : K → K} {u e : K} (R : Rounds rm u e) (hu : 0 ≤ u) (hu1 : u ≤ 1 / 4) (he : 0 ≤ e) {a b z M S : K} {n : Nat} (hM : |a| ≤ M) (hz : |z| ≤ M)
    (h : |b - a| * n ≤ S) : |nextD rm b n z - (a * n + z) / ((n : K) + 1)| * ((n : K) + 1) ≤
      (1 + u) ^ 3 * S + ((1 + u) ^ 3 - 1) * (((n : K) + 1) * M) + e * ((n : K) + 4) := by
  have hn : (0 : K) ≤ n := Nat.cast_nonneg n
  have hp : (0 : K) < (n : K) + 1 := by linarith
  have hM0 : 0 ≤ M := (abs_nonneg a).trans hM
  have h1 : |b * n - a * n| ≤ S := by
    rw [← sub_mul, abs_mul, abs_of_nonneg hn]; exact h
  have h2 : |a * n| ≤ n * M := by
    rw [abs_mul, abs_of_nonneg hn, mul_comm]; exact mul_le_mul_of_nonneg_left hM hn
  have k1 := R.from hu h1 h2
  have h3 : |rm (b * n) + z - (a * n + z)| ≤ (1 + u) * S + u * (n * M) + e := by
    rwa [add_sub_add_right_eq_sub]
  have h4 : |a * n + z| ≤ ((n : K) + 1) * M := by
    have := abs_add_le (a * n) z
    linarith
  have k2 := R.from hu h3 h4
  have h5 : |rm (rm (b * n) + z) / ((n : K) + 1) - (a * n + z) / ((n : K) + 1)| ≤
      ((1 + u) * ((1 + u) * S + u * (n * M) + e) + u * (((n : K) + 1) * M) + e) / ((n : K) + 1) := by
    rw [← sub_div, abs_div, abs_of_pos hp]
    exact div_le_div_of_nonneg_right k2 hp.le
  have h6 : |(a * n + z) / ((n : K) + 1)| ≤ M := by
    rw [abs_div, abs_of_pos hp, div_le_iff₀ hp, mul_comm M]; exact h4
  have k3 := R.from hu h5 h6
  have k4 := mul_le_mul_of_nonneg_right k3 hp.le
  have e1 : ((1 + u) * (((1 + u) * ((1 + u) * S + u * (n * M) + e) + u * (((n : K) + 1) * M) + e) / ((n : K) + 1)) + u * M + e) * ((n : K) + 1) =
      (1 + u) * ((1 + u) * ((1 + u) * S + u * (n * M) + e) + u * (((n : K) + 1) * M) + e) + (u * M + e) * ((n : K) + 1) := by
    field_simp
    ring
  rw [e1] at k4
  refine k4.trans ?_
  have m1 : 0 ≤ u * M * (1 + u) ^ 2 := by positivity
  have m2 : 0 ≤ e * (1 - 3 * u - u ^ 2) := mul_nonneg he (by nlinarith)
  nlinarith

theorem abs_sum_le (zs : List K) {M : K} (h : ∀ z ∈ zs, |z| ≤ M) : |zs.sum| ≤ zs.length * M := by
  induction zs with
  | nil => simp
  | cons z zs ih =>
    have h1 := ih fun x hx => h x (by simp [hx])
    have h2 := h z (by simp)
    rw [List.sum_cons, List.length_cons]
    push_cast
    have := abs_add_le z zs.sum
    linarith

theorem abs_mean_le (zs : List K) {M : K} (hM : 0 ≤ M) (h : ∀ z ∈ zs, |z| ≤ M) : |mean zs| ≤ M := by
  unfold mean
  rcases Nat.eq_zero_or_pos zs.length with h0 | h0
  · rw [h0]; simpa using hM
  · have hp : (0 : K) < zs.length := by exact_mod_cast h0
    rw [abs_div, abs_of_pos hp, div_le_iff₀ hp, mul_comm]
    exact abs_sum_le zs h

theorem value_err {rm : K → K} {u e : K} (R : Rounds rm u e) (hu : 0 ≤ u) (hu1 : u ≤ 1 / 4) (he : 0 ≤ e) {M : K} : ∀ zs : List K, (∀ z ∈ zs, |z| ≤ M) →
    |valueD rm zs - mean zs| * zs.length ≤ zs.length * (M * (((1 + u) ^ 3) ^ zs.length - 1)) + zs.length * (e * (((zs.length : K) + 4) * ((1 + u) ^ 3) ^ zs.length))
  | [], _ => by simp
  | z :: zs, h => by
    have hM : 0 ≤ M := (abs_nonneg z).trans (h z (by simp))
    have ih := value_err R hu hu1 he zs fun x hx => h x (by simp [hx])
    have k := next_err R hu hu1 he (abs_mean_le zs hM fun x hx => h x (by simp [hx])) (h z (by simp)) ih
    have e1 : mean (z :: zs) = (mean zs * zs.length + z) / ((zs.length : K) + 1) := by
      simp only [mean, List.sum_cons, List.length_cons]
      push_cast
      rcases Nat.eq_zero_or_pos zs.length with h0 | h0
      · have : zs = [] := List.length_eq_zero_iff.1 h0
        subst this
        simp
      · have : (zs.length : K) ≠ 0 := by positivity
        field_simp
        ring
    rw [e1, show valueD rm (z :: zs) = nextD rm (valueD rm zs) zs.length z from rfl, List.length_cons]
    push_cast
    refine k.trans ?_
    have g1 : 1 ≤ (1 + u) ^ 3 := one_le_pow₀ (by linarith)
    generalize (1 + u) ^ 3 = g at g1 ⊢
    have hn : (0 : K) ≤ zs.length := Nat.cast_nonneg _
    have hg : 1 ≤ g ^ zs.length := one_le_pow₀ g1
    rw [pow_succ]
    generalize g ^ zs.length = q at hg ⊢
    generalize (zs.length : K) = n at hn ⊢
    have m1 : 0 ≤ M * (g * (q - 1)) := by
      apply mul_nonneg hM; apply mul_nonneg <;> linarith
    have hgq : 1 ≤ q * g := by nlinarith
    have m2 : 0 ≤ e * ((n + 5) * (n + 1) * (q * g) - n * (n + 4) * (q * g) - (n + 4)) := by
      apply mul_nonneg he
      nlinarith
    nlinarith

theorem pow_le_lin {u : K} (hu : 0 ≤ u) {N : Nat} (hN : 5 * (N * u) ≤ 1) : ∀ m : Nat, m ≤ N → (1 + u) ^ m ≤ 1 + 5 / 4 * (m * u)
  | 0, _ => by simp
  | m + 1, hm => by
    have ih := pow_le_lin hu hN m (by omega)
    have h1 : (m : K) * u ≤ N * u := mul_le_mul_of_nonneg_right (by exact_mod_cast (by omega : m ≤ N)) hu
    rw [pow_succ]
    push_cast
    have h2 : (1 + u) ^ m * (1 + u) ≤ (1 + 5 / 4 * (m * u)) * (1 + u) := mul_le_mul_of_nonneg_right ih (by linarith)
    nlinarith

/-! ### The image -/

theorem heightsOn_append (k : Nat) (H H' : List (Nat × K)) : heightsOn k (H ++ H') = heightsOn k H ++ heightsOn k H' := by
  simp [heightsOn]

/-- The image and the hit counts after the heights `H`. -/
def Painted (rm : K → K) (N : Nat) (H : List (Nat × K)) (s : List K × List Int) : Prop :=
  s.1.length = N ∧ s.2.length = N ∧ ∀ k < N, (heightsOn k H).length ≤ 32767 →
    s.1[k]? = some (valueD rm (heightsOn k H).reverse) ∧ s.2[k]? = some ((heightsOn k H).length : Int)

theorem painted_nil (rm : K → K) (N : Nat) : Painted rm N [] (List.replicate N 0, List.replicate N 0) := by
  refine ⟨by simp, by simp, fun k hk _ => ?_⟩
  simp [heightsOn, valueD, hk]

theorem painted_bump {rm : K → K} {N : Nat} {H : List (Nat × K)} {s s' : List K × List Int} (P : Painted rm N H s) {k : Nat} {z : K}
    (h : bumpD rm true k z s = .ok s') : Painted rm N (H ++ [(k, z)]) s' := by
  unfold bumpD at h
  obtain ⟨v, h1, h⟩ := Out.bind_eq_ok.1 h
  obtain ⟨n, h2, h⟩ := Out.bind_eq_ok.1 h
  cases h
  rw [Out.atOr_eq_ok] at h1 h2
  obtain ⟨p1, p2, p3⟩ := P
  have hk : k < N := by
    rw [← p1]
    exact (List.getElem?_eq_some_iff.1 h1).1
  refine ⟨by simpa using p1, by simpa using p2, fun j hj hl => ?_⟩
  rw [heightsOn_append, List.length_append] at hl
  obtain ⟨q1, q2⟩ := p3 j hj (by omega)
  by_cases hjk : k = j
  · subst hjk
    have e0 : heightsOn k [(k, z)] = [z] := by simp [heightsOn]
    rw [e0] at hl
    rw [heightsOn_append, e0, List.reverse_append, List.length_append]
    rw [h1] at q1
    rw [h2] at q2
    cases q1
    cases q2
    have hs : shortSucc ((heightsOn k H).length : Int) = ((heightsOn k H).length : Int) + 1 := by
      unfold shortSucc
      rw [if_neg]
      simp only [List.length_singleton] at hl
      omega
    rw [hs]
    constructor
    · rw [List.getElem?_set_self (by omega)]
      simp only [List.reverse_cons, List.reverse_nil, List.nil_append, List.cons_append, valueD, nextD, List.length_reverse, if_true]
      push_cast
      rfl
    · rw [List.getElem?_set_self (by omega)]
      simp
  · have e0 : heightsOn j [(k, z)] = [] := by simp [heightsOn, hjk]
    rw [heightsOn_append, e0, List.append_nil, List.getElem?_set_ne hjk, List.getElem?_set_ne hjk]
    exact ⟨q1, q2⟩
end

section
variable {K : Type} [Field K] [LinearOrder K] [IsStrictOrderedRing K] [FloorRing K] {C : Cgal K} {rd rm : K → K} {ph : FacePrint K → Pwh K → Out K}

theorem painted_loop {f : FacePrint K} {b : Box2 K} {p : K} {i0 j0 w W N : Nat} : ∀ (ns : List Nat) {H : List (Nat × K)} {s s' : List K × List Int}, Painted rm N H s →
    rasterLoopD C rd rm ph true f b p i0 j0 w W ns s = .ok s' → ∃ H', (∀ e ∈ H', ∃ q, heightD C rm (ph f) f q = .ok (some e.2)) ∧ Painted rm N (H ++ H') s'
  | [], H, s, s', P, h => by
    cases h
    exact ⟨[], by simp, by simpa using P⟩
  | n :: ns, H, s, s', P, h => by
    unfold rasterLoopD at h
    obtain ⟨z, h1, h⟩ := Out.bind_eq_ok.1 h
    cases z with
    | none => exact painted_loop ns P h
    | some z =>
      obtain ⟨t, h2, h⟩ := Out.bind_eq_ok.1 h
      obtain ⟨H', k1, k2⟩ := painted_loop ns (painted_bump P h2) h
      refine ⟨_ :: H', ?_, by rw [List.append_assoc] at k2; exact k2⟩
      intro e he
      rcases List.mem_cons.1 he with rfl | he
      · exact ⟨_, h1⟩
      · exact k1 e he

theorem painted_face {f : FacePrint K} {left top p : K} {h' w' N : Nat} {H : List (Nat × K)} {s s' : List K × List Int} (P : Painted rm N H s)
    (h : rasterizeD C rd rm ph true f left top h' w' p s = .ok s') :
    ∃ H', (∀ e ∈ H', ∃ q, heightD C rm (ph f) f q = .ok (some e.2)) ∧ Painted rm N (H ++ H') s' := by
  unfold rasterizeD at h
  split at h
  · cases h
    exact ⟨[], by simp, by simpa using P⟩
  · split at h
    · cases h
    · obtain ⟨i0, _, h⟩ := Out.bind_eq_ok.1 h
      obtain ⟨j0, _, h⟩ := Out.bind_eq_ok.1 h
      obtain ⟨w, _, h⟩ := Out.bind_eq_ok.1 h
      obtain ⟨hh, _, h⟩ := Out.bind_eq_ok.1 h
      split at h
      · cases h
      · exact painted_loop _ P h

theorem painted_faces {left top p : K} {h' w' N : Nat} : ∀ (fs : List (FacePrint K)) {H : List (Nat × K)} {s s' : List K × List Int}, Painted rm N H s →
    Raster.paintD C rd rm ph true left top h' w' p fs s = .ok s' →
    ∃ H', (∀ e ∈ H', ∃ f ∈ fs, ∃ q, heightD C rm (ph f) f q = .ok (some e.2)) ∧ Painted rm N (H ++ H') s'
  | [], H, s, s', P, h => by
    cases h
    exact ⟨[], by simp, by simpa using P⟩
  | f :: fs, H, s, s', P, h => by
    unfold Raster.paintD at h
    obtain ⟨t, h1, h⟩ := Out.bind_eq_ok.1 h
    obtain ⟨H1, a1, a2⟩ := painted_face P h1
    obtain ⟨H2, b1, b2⟩ := painted_faces fs a2 h
    refine ⟨H1 ++ H2, ?_, by rw [List.append_assoc] at b2; exact b2⟩
    intro e he
    rcases List.mem_append.1 he with he | he
    · obtain ⟨q, hq⟩ := a1 e he
      exact ⟨f, by simp, q, hq⟩
    · obtain ⟨g, hg, q, hq⟩ := b1 e he
      exact ⟨g, by simp [hg], q, hq⟩

theorem offsetD_spec (z : K) (hits : List Int) : ∀ (ks : List Nat) (img img' : List K), ks.Nodup → Raster.offsetLoopD rm z hits ks img = .ok img' →
    img'.length = img.length ∧ (∀ k, k ∉ ks → img'[k]? = img[k]?) ∧
      ∀ k ∈ ks, ∀ v n, img[k]? = some v → hits[k]? = some n → img'[k]? = some (rm (v + if n = 0 then 0 else z))
  | [], img, img', _, h => by cases h; exact ⟨rfl, fun _ _ => rfl, by simp⟩
  | k :: ks, img, img', hnd, h => by
    rw [List.nodup_cons] at hnd
    unfold Raster.offsetLoopD at h
    obtain ⟨v, h1, h⟩ := Out.bind_eq_ok.1 h
    obtain ⟨n, h2, h⟩ := Out.bind_eq_ok.1 h
    rw [Out.atOr_eq_ok] at h1 h2
    obtain ⟨e2, e3, e4⟩ := offsetD_spec z hits ks _ _ hnd.2 h
    refine ⟨by rw [e2, List.length_set], ?_, ?_⟩
    · intro j hj
      rw [List.mem_cons, not_or] at hj
      rw [e3 j hj.2, List.getElem?_set_ne (Ne.symm hj.1)]
    · intro j hj v' n' hv' hn'
      rcases List.mem_cons.1 hj with rfl | hj
      · rw [h1] at hv'
        rw [h2] at hn'
        cases hv'
        cases hn'
        rw [e3 _ hnd.1, List.getElem?_set_self (List.getElem?_eq_some_iff.1 h1).1]
        unfold times
        by_cases h0 : n = 0 <;> simp [h0]
      · have hne : k ≠ j := by rintro rfl; exact hnd.1 hj
        exact e4 j hj v' n' (by rw [List.getElem?_set_ne hne]; exact hv') hn'

/-- The whole image. -/
theorem ofFootPrintD_spec {fp : FootPrint K} {p : K} {r : Raster K} (h : Raster.ofFootPrintD C rd rm ph true fp p = .ok r) :
    ∃ H : List (Nat × K), (∀ e ∈ H, ∃ f ∈ fp.brick.faces, ∃ q, heightD C rm (ph f) f q = .ok (some e.2)) ∧
      ∀ k < r.height * r.width, (heightsOn k H).length ≤ 32767 → r.hits[k]? = some ((heightsOn k H).length : Int) ∧
        r.image[k]? = some (rm (valueD rm (heightsOn k H).reverse + if heightsOn k H = [] then 0 else fp.ref.z)) := by
  unfold Raster.ofFootPrintD at h
  split at h
  · cases h
  · obtain ⟨hh, _, h⟩ := Out.bind_eq_ok.1 h
    obtain ⟨w, _, h⟩ := Out.bind_eq_ok.1 h
    obtain ⟨s, h1, h⟩ := Out.bind_eq_ok.1 h
    obtain ⟨img, h2, h⟩ := Out.bind_eq_ok.1 h
    cases h
    obtain ⟨H, k1, _, _, k2⟩ := painted_faces _ (painted_nil rm (hh * w)) h1
    rw [List.nil_append] at k2
    refine ⟨H, k1, fun k hk hl => ?_⟩
    obtain ⟨q1, q2⟩ := k2 k hk hl
    have := (offsetD_spec _ _ _ _ _ List.nodup_range h2).2.2 k (List.mem_range.2 hk) _ _ q1 q2
    refine ⟨q2, this.trans ?_⟩
    congr 3
    rw [add_zero]
    simp
end

section
variable {K : Type} [Field K] [LinearOrder K] [IsStrictOrderedRing K]

theorem partsD_eq {rm : K → K} {ph : Pwh K → Out K} {n : K} : ∀ (qs : List (Pwh K)) {s r : K}, partsD rm ph n qs s = .ok r →
    ∃ zs : List K, qs.map ph = zs.map Out.ok ∧ r = zs.foldl (fun s z => rm (s + rm (z / n))) s
  | [], s, r, h => by cases h; exact ⟨[], rfl, rfl⟩
  | q :: qs, s, r, h => by
    unfold partsD at h
    obtain ⟨z, h1, h⟩ := Out.bind_eq_ok.1 h
    obtain ⟨zs, k1, k2⟩ := partsD_eq qs h
    exact ⟨z :: zs, by rw [List.map_cons, List.map_cons, h1, k1], k2⟩

theorem parts_err {rm : K → K} {u e : K} (R : Rounds rm u e) (hu : 0 ≤ u) (hu1 : u ≤ 1 / 4) (he : 0 ≤ e) {M : K} (hM : 0 ≤ M) {N : Nat} :
    ∀ (zs : List K) (i : Nat) (a b : K), i + zs.length ≤ N → (∀ z ∈ zs, |z| ≤ M) → |a| * N ≤ i * M →
      |b - a| ≤ M * (((1 + u) ^ 2) ^ i - 1) + 3 * e * (i * ((1 + u) ^ 2) ^ i) →
      |zs.foldl (fun s z => rm (s + rm (z / (N : K)))) b - (a + zs.sum / N)| ≤
        M * (((1 + u) ^ 2) ^ (i + zs.length) - 1) + 3 * e * (((i + zs.length : Nat) : K) * ((1 + u) ^ 2) ^ (i + zs.length))
  | [], i, a, b, _, _, _, h => by simpa using h
  | z :: zs, i, a, b, hl, hz, ha, h => by
    rw [List.length_cons] at hl
    have hN : (0 : K) < N := by exact_mod_cast (by omega : 0 < N)
    have hN1 : (1 : K) ≤ N := by exact_mod_cast (by omega : 1 ≤ N)
    have hi : ((i : K) + 1) ≤ N := by exact_mod_cast (by omega : i + 1 ≤ N)
    have z1 := hz z (by simp)
    have z2 : |z / (N : K)| ≤ M := by
      rw [abs_div, abs_of_pos hN, div_le_iff₀ hN]
      nlinarith
    have z3 := R.from hu (show |z / (N : K) - z / N| ≤ 0 by simp) z2
    have z4 : |(b + rm (z / N)) - (a + z / N)| ≤ M * (((1 + u) ^ 2) ^ i - 1) + 3 * e * (i * ((1 + u) ^ 2) ^ i) + (u * M + e) := by
      have := abs_add_le (b - a) (rm (z / N) - z / N)
      rw [show b - a + (rm (z / N) - z / N) = (b + rm (z / N)) - (a + z / N) by ring] at this
      linarith
    have a1 : |a + z / N| * N ≤ ((i + 1 : Nat) : K) * M := by
      have := abs_add_le a (z / N)
      have k : |z / (N : K)| * N = |z| := by rw [abs_div, abs_of_pos hN]; field_simp
      push_cast
      nlinarith
    have a2 : |a + z / N| ≤ M := by
      have k : ((i + 1 : Nat) : K) * M ≤ N * M := mul_le_mul_of_nonneg_right (by push_cast; exact hi) hM
      have k2 : |a + z / N| * N ≤ M * N := by linarith
      exact le_of_mul_le_mul_right k2 hN
    have z5 := R.from hu z4 a2
    have ih := parts_err R hu hu1 he hM zs (i + 1) (a + z / N) (rm (b + rm (z / N))) (by omega) (fun x hx => hz x (by simp [hx])) a1 (z5.trans ?_)
    · rw [List.foldl_cons, List.sum_cons, List.length_cons, show i + (zs.length + 1) = i + 1 + zs.length by omega, add_div, ← add_assoc]
      exact ih
    · have g1 : 1 ≤ (1 + u) ^ 2 := one_le_pow₀ (by linarith)
      have hg : 1 ≤ ((1 + u) ^ 2) ^ i := one_le_pow₀ g1
      have hi0 : (0 : K) ≤ i := Nat.cast_nonneg i
      rw [pow_succ ((1 + u) ^ 2) i]
      generalize ((1 + u) ^ 2) ^ i = q at hg ⊢
      push_cast
      generalize (i : K) = j at hi0 ⊢
      have m1 : 0 ≤ M * ((q - 1) * (u * (1 + u))) := by
        apply mul_nonneg hM; apply mul_nonneg; · linarith
        · positivity
      have m2 : 0 ≤ e * (3 * ((j + 1) * (q * (1 + u) ^ 2)) - 3 * (1 + u) * (j * q) - (2 + u)) := by
        apply mul_nonneg he
        have t1 : 0 ≤ j * q * (u * (1 + u)) := by positivity
        have t2 : 1 ≤ q * (1 + u) ^ 2 := by nlinarith
        nlinarith
      nlinarith

theorem final_err {rm : K → K} {u e : K} (R : Rounds rm u e) (hu : 0 ≤ u) (hu1 : u * (3 * 32767) * 5 ≤ 1) (he : 0 ≤ e) {M z0 : K} {zs : List K} (h0 : zs ≠ [])
    (hl : zs.length ≤ 32767) (hM : ∀ z ∈ zs, |z| ≤ M) :
    |rm (valueD rm zs + z0) - (mean zs + z0)| ≤ ((zs.length : K) + 1) * (4 * u) * (M + |z0|) + ((zs.length : K) + 6) * (2 * e) := by
  have hn0 : 0 < zs.length := List.length_pos_iff.2 h0
  obtain ⟨z, hz⟩ := List.exists_mem_of_ne_nil zs h0
  have hM0 : 0 ≤ M := (abs_nonneg z).trans (hM z hz)
  have k1 := value_err R hu (by linarith) he zs hM
  have hm := abs_mean_le zs hM0 hM
  have k2 : ((1 + u) ^ 3) ^ zs.length ≤ 1 + 15 / 4 * (zs.length * u) := by
    have := pow_le_lin (N := 3 * 32767) hu (by push_cast; linarith) (3 * zs.length) (by omega)
    rw [← pow_mul]
    push_cast at this
    linarith
  have hp : (0 : K) < zs.length := by exact_mod_cast hn0
  have hl' : (zs.length : K) ≤ 32767 := by exact_mod_cast hl
  generalize (zs.length : K) = n at k1 k2 hp hl' ⊢
  generalize ((1 + u) ^ 3) ^ zs.length = G at k1 k2
  have k3 : |valueD rm zs - mean zs| ≤ M * (G - 1) + e * ((n + 4) * G) := by
    refine le_of_mul_le_mul_right ?_ hp
    linarith
  have nu : n * u ≤ 1 / 15 := by nlinarith
  have k4 : |valueD rm zs - mean zs| ≤ M * (15 / 4 * (n * u)) + e * ((n + 4) * (5 / 4)) := by
    have t1 : M * (G - 1) ≤ M * (15 / 4 * (n * u)) := mul_le_mul_of_nonneg_left (by linarith) hM0
    have t2 : e * ((n + 4) * G) ≤ e * ((n + 4) * (5 / 4)) := mul_le_mul_of_nonneg_left (mul_le_mul_of_nonneg_left (by linarith) (by linarith)) he
    linarith
  have k5 : |valueD rm zs + z0 - (mean zs + z0)| ≤ M * (15 / 4 * (n * u)) + e * ((n + 4) * (5 / 4)) := by rwa [add_sub_add_right_eq_sub]
  have k6 : |mean zs + z0| ≤ M + |z0| := (abs_add_le _ _).trans (by linarith)
  refine (R.from hu k5 k6).trans ?_
  have hz0 := abs_nonneg z0
  generalize |z0| = w at hz0
  have u15 : u ≤ 1 / 15 := by linarith
  have m1 : 0 ≤ M * (n * u) * (1 / 4 - 15 / 4 * u) := by
    apply mul_nonneg (by positivity); linarith
  have m2 : 0 ≤ u * (3 * (M + w) + 4 * n * w) := by positivity
  have m3 : 0 ≤ e * ((n + 6) * 2 - (1 + u) * ((n + 4) * (5 / 4)) - 1) := by
    apply mul_nonneg he; nlinarith
  nlinarith
end
end City
