import Verif.Spec.Surf
import Mathlib.Data.List.Nodup
import Mathlib.Data.Nat.Find
import Mathlib.Data.Fintype.Card
/-!
Circulators around facets.
-/
set_option linter.unusedSectionVars false
namespace City
open Spec
variable {K : Type} {S : Surf K}

theorem circulate_iter (nx : Nat → Nat) (h0 n : Nat) (hn : nx^[n] h0 = h0) (hmin : ∀ k, 0 < k → k < n → nx^[k] h0 ≠ h0) :
    ∀ d k m, k + d + 1 = n → d < m → circulate nx h0 m (nx^[k] h0) = some ((List.range (d + 1)).map fun i => nx^[k + i] h0) := by
  intro d
  induction d with
  | zero =>
    intro k m hk hm
    obtain ⟨m, rfl⟩ : ∃ m', m = m' + 1 := ⟨m - 1, by omega⟩
    unfold circulate
    rw [← Function.iterate_succ_apply' nx k, if_pos (by rw [show k.succ = n by omega]; exact hn)]
    simp
  | succ d ih =>
    intro k m hk hm
    obtain ⟨m, rfl⟩ : ∃ m', m = m' + 1 := ⟨m - 1, by omega⟩
    unfold circulate
    rw [← Function.iterate_succ_apply' nx k, if_neg (hmin _ (by omega) (by omega)), ih (k + 1) m (by omega) (by omega)]
    rw [List.range_succ_eq_map (n := d + 1)]
    simp only [Option.map_some, List.map_cons, List.map_map, Nat.add_zero]
    congr 2
    apply List.map_congr_left
    intro i _
    simp only [Function.comp]
    congr 1
    omega

theorem Spec.ValidSurf.iter_mem (V : ValidSurf S) {h : Nat} (hh : h ∈ S.hs) : ∀ n, S.next^[n] h ∈ S.hs
  | 0 => hh
  | n + 1 => by rw [Function.iterate_succ_apply']; exact V.next_mem _ (V.iter_mem hh n)

theorem Spec.ValidSurf.next_inj (V : ValidSurf S) {a b : Nat} (ha : a ∈ S.hs) (hb : b ∈ S.hs) (h : S.next a = S.next b) : a = b := by
  rw [← V.prev_next a ha, h, V.prev_next b hb]

theorem Spec.ValidSurf.iter_inj (V : ValidSurf S) {a b : Nat} (ha : a ∈ S.hs) (hb : b ∈ S.hs) : ∀ n, S.next^[n] a = S.next^[n] b → a = b
  | 0, h => h
  | n + 1, h => by
    rw [Function.iterate_succ_apply', Function.iterate_succ_apply'] at h
    exact V.iter_inj ha hb n (V.next_inj (V.iter_mem ha n) (V.iter_mem hb n) h)

/-- Going on from a half-edge one is back after at most as many steps as there are half-edges. -/
theorem Spec.ValidSurf.period (V : ValidSurf S) {h : Nat} (hh : h ∈ S.hs) :
    ∃ n, 0 < n ∧ n ≤ S.hs.length ∧ S.next^[n] h = h ∧ ∀ k, 0 < k → k < n → S.next^[k] h ≠ h := by
  classical
  have hex : ∃ n, 0 < n ∧ n ≤ S.hs.length ∧ S.next^[n] h = h := by
    have hnd : ¬ ((List.range (S.hs.length + 1)).map fun i => S.next^[i] h).Nodup := by
      intro hnd
      have hsub : ((List.range (S.hs.length + 1)).map fun i => S.next^[i] h) ⊆ S.hs := by
        intro x hx
        obtain ⟨i, _, rfl⟩ := List.mem_map.1 hx
        exact V.iter_mem hh i
      have := (List.subperm_of_subset hnd hsub).length_le
      simp at this
    have : ∃ i j, i < j ∧ j ≤ S.hs.length ∧ S.next^[i] h = S.next^[j] h := by
      by_contra hc
      apply hnd
      apply List.Nodup.map_on _ List.nodup_range
      intro a ha b hb hab
      rw [List.mem_range] at ha hb
      rcases Nat.lt_trichotomy a b with hlt | heq | hgt
      · exact absurd ⟨a, b, hlt, by omega, hab⟩ hc
      · exact heq
      · exact absurd ⟨b, a, hgt, by omega, hab.symm⟩ hc
    obtain ⟨i, j, hij, hj, he⟩ := this
    refine ⟨j - i, by omega, by omega, ?_⟩
    have : S.next^[i] (S.next^[j - i] h) = S.next^[i] h := by
      rw [← Function.iterate_add_apply, show i + (j - i) = j by omega, he]
    exact V.iter_inj (V.iter_mem hh _) hh i this
  refine ⟨Nat.find hex, (Nat.find_spec hex).1, (Nat.find_spec hex).2.1, (Nat.find_spec hex).2.2, ?_⟩
  intro k hk hkn he
  exact Nat.find_min hex hkn ⟨hk, le_trans hkn.le (Nat.find_spec hex).2.1, he⟩

/-- The circulator from any half-edge ends; it visits each half-edge of the cycle once. -/
theorem Spec.ValidSurf.cycle (V : ValidSurf S) {h : Nat} (hh : h ∈ S.hs) {m : Nat} (hm : S.hs.length ≤ m) :
    ∃ l, circulate S.next h m h = some l ∧ l.Nodup ∧ l.length ≤ S.hs.length ∧ (∀ x, x ∈ l ↔ ∃ n, S.next^[n] h = x) ∧
      (∃ n, 0 < n ∧ l = (List.range n).map (fun i => S.next^[i] h) ∧ S.next^[n] h = h) := by
  obtain ⟨n, h0, hn, hp, hmin⟩ := V.period hh
  refine ⟨(List.range n).map fun i => S.next^[i] h, ?_, ?_, by simpa using hn, ?_, n, h0, rfl, hp⟩
  · have := circulate_iter S.next h n hp hmin (n - 1) 0 m (by omega) (by omega)
    rw [Function.iterate_zero, id] at this
    rw [this, show n - 1 + 1 = n by omega]
    simp
  · apply List.Nodup.map_on _ List.nodup_range
    intro a ha b hb hab
    rw [List.mem_range] at ha hb
    by_contra hne
    rcases Nat.lt_or_gt_of_ne hne with hlt | hlt
    · refine hmin (b - a) (by omega) (by omega) (V.iter_inj (V.iter_mem hh _) hh a ?_)
      rw [← Function.iterate_add_apply, show a + (b - a) = b by omega, hab]
    · refine hmin (a - b) (by omega) (by omega) (V.iter_inj (V.iter_mem hh _) hh b ?_)
      rw [← Function.iterate_add_apply, show b + (a - b) = a by omega, hab]
  · intro x
    rw [List.mem_map]
    constructor
    · rintro ⟨i, _, rfl⟩; exact ⟨i, rfl⟩
    · rintro ⟨k, rfl⟩
      refine ⟨k % n, List.mem_range.2 (Nat.mod_lt _ h0), ?_⟩
      have hmul : ∀ q, S.next^[n * q] h = h := by
        intro q
        induction q with
        | zero => rfl
        | succ q ih => rw [Nat.mul_succ, Function.iterate_add_apply, hp, ih]
      conv_rhs => rw [← Nat.mod_add_div k n, Function.iterate_add_apply, hmul]

theorem Spec.ValidSurf.face_iter (V : ValidSurf S) {h : Nat} (hh : h ∈ S.hs) : ∀ n, S.face (S.next^[n] h) = S.face h
  | 0 => rfl
  | n + 1 => by rw [Function.iterate_succ_apply', V.face_next _ (V.iter_mem hh n), V.face_iter hh n]

/-- The circulator around a facet visits exactly its half-edges, each once. -/
theorem Spec.ValidSurf.around (V : ValidSurf S) {f : Nat} (hf : f ∈ S.fs) :
    ∃ l, S.around f = .ok l ∧ l.Nodup ∧ (∀ h, h ∈ l ↔ h ∈ S.hs ∧ S.face h = some f) ∧
      ∃ n, 0 < n ∧ l = (List.range n).map (fun i => S.next^[i] (S.start f)) ∧ S.next^[n] (S.start f) = S.start f := by
  obtain ⟨l, h1, h2, _, h3, h4⟩ := V.cycle (V.start_mem f hf) (m := S.hs.length + 1) (by omega)
  refine ⟨l, by unfold Surf.around; rw [h1], h2, ?_, h4⟩
  intro h
  rw [h3]
  constructor
  · rintro ⟨n, rfl⟩
    exact ⟨V.iter_mem (V.start_mem f hf) n, by rw [V.face_iter (V.start_mem f hf), V.face_start f hf]⟩
  · rintro ⟨a, b⟩
    exact V.one_cycle f hf h a b

end City
