import Mathlib.Tactic.FinCases
import Mathlib.Tactic.IntervalCases
import Verif.Props.Handlers
/-!
Property C31, in terms of the characters of the file name.
-/
namespace City.Spec
open City

/-- The name of the file at `p` ends in a dot and the letters of `e`, small or capital. -/
def NamedLike (p : Path) (e : Text) : Prop :=
  ∃ d s x, p = d ++ [s ++ '.' :: x] ∧ List.Forall₂ (fun c b => c = b ∨ c = b.toUpper) x e

end City.Spec

namespace City.Props
open City Spec

theorem lower_eq {a b : Char} (hb : b ∈ ['3', 'd', 's', 'o', 'b', 'j', 'f']) : lower a = b ↔ a = b ∨ a = b.toUpper := by
  constructor
  · unfold lower
    by_cases h : 'A' ≤ a ∧ a ≤ 'Z'
    · rw [if_pos h]
      have h1 : 65 ≤ a.toNat := h.1
      have h2 : a.toNat ≤ 90 := h.2
      clear h
      have e : a = Char.ofNat a.toNat := (Char.ofNat_toNat a).symm
      revert e h1 h2
      generalize a.toNat = k
      rintro h1 h2 rfl
      have := (List.mem_range' (m := k) (s := 65) (n := 26) (step := 1)).2 ⟨k - 65, by omega, by omega⟩
      revert hb this
      clear h1 h2
      revert k b
      have key : ∀ b ∈ ['3', 'd', 's', 'o', 'b', 'j', 'f'], ∀ k ∈ List.range' 65 26, Char.ofNat (k + 32) = b → Char.ofNat k = b ∨ Char.ofNat k = b.toUpper := by decide
      exact fun b k hb hk => key b hb k hk
    · rw [if_neg h]
      exact Or.inl
  · have key : ∀ b ∈ ['3', 'd', 's', 'o', 'b', 'j', 'f'], lower b = b ∧ lower b.toUpper = b := by decide
    rintro (rfl | rfl)
    · exact (key _ hb).1
    · exact (key _ hb).2

theorem map_lower_eq {x e : Text} (he : ∀ b ∈ e, b ∈ ['3', 'd', 's', 'o', 'b', 'j', 'f']) :
    x.map lower = e ↔ List.Forall₂ (fun c b => c = b ∨ c = b.toUpper) x e := by
  induction x generalizing e with
  | nil => cases e <;> simp
  | cons c x ih =>
    cases e with
    | nil => simp
    | cons b e =>
      rw [List.map_cons, List.cons.injEq, List.forall₂_cons, ih (fun y hy => he y (List.mem_cons_of_mem _ hy)), lower_eq (he b List.mem_cons_self)]

/-- The extension is cut at the last dot. -/
theorem splitExt_spec (n : Text) : (∃ s x, n = s ++ '.' :: x ∧ '.' ∉ x ∧ splitExt n = (s, '.' :: x)) ∨ ('.' ∉ n ∧ splitExt n = (n, [])) := by
  unfold splitExt
  dsimp only
  have h := List.takeWhile_append_dropWhile (p := fun c => c != '.') (l := n.reverse)
  rw [List.span_eq_takeWhile_dropWhile]
  cases hd : n.reverse.dropWhile (fun c => c != '.') with
  | nil =>
    refine Or.inr ⟨?_, rfl⟩
    intro hc
    have := List.dropWhile_eq_nil_iff.1 hd '.' (List.mem_reverse.2 hc)
    simp at this
  | cons c s =>
    have hc : c = '.' := by
      have := List.head_dropWhile_not (fun c => c != '.') (l := n.reverse) (by rw [hd]; simp)
      simp only [hd, List.head_cons] at this
      simpa using this
    subst hc
    refine Or.inl ⟨s.reverse, (n.reverse.takeWhile (fun c => c != '.')).reverse, ?_, ?_, rfl⟩
    · rw [hd] at h
      have := congrArg List.reverse h
      rw [List.reverse_reverse] at this
      conv_lhs => rw [← this]
      simp
    · intro hx
      have := List.mem_takeWhile_imp (List.mem_reverse.1 hx)
      simp at this

theorem lower_dot {c : Char} : lower c = '.' ↔ c = '.' := by
  constructor
  · unfold lower
    by_cases h : 'A' ≤ c ∧ c ≤ 'Z'
    · rw [if_pos h]
      have h1 : 65 ≤ c.toNat := h.1
      have h2 : c.toNat ≤ 90 := h.2
      have := (List.mem_range' (m := c.toNat) (s := 65) (n := 26) (step := 1)).2 ⟨c.toNat - 65, by omega, by omega⟩
      have key : ∀ k ∈ List.range' 65 26, Char.ofNat (k + 32) ≠ '.' := by decide
      intro hh
      exact absurd hh (key _ this)
    · rw [if_neg h]; exact id
  · rintro rfl; decide

theorem iequals_ext {p : Path} {e : Text} (he : ∀ b ∈ e, b ∈ ['3', 'd', 's', 'o', 'b', 'j', 'f']) :
    iequals (extension p) ('.' :: e) = true ↔ NamedLike p e := by
  have hnd : '.' ∉ e := fun h => absurd (he _ h) (by decide)
  have hlow : e.map lower = e := by
    rw [map_lower_eq he]; exact List.forall₂_same.2 fun _ _ => Or.inl rfl
  unfold iequals extension NamedLike
  rw [beq_iff_eq, List.map_cons, hlow]
  have hl : lower '.' = '.' := by decide
  rw [hl]
  constructor
  · intro h
    rcases splitExt_spec (fileName p) with ⟨s, x, h1, h2, h3⟩ | ⟨h1, h2⟩
    · rw [h3] at h
      simp only [List.map_cons, List.cons.injEq] at h
      have hp : p ≠ [] := by
        rintro rfl
        simp [fileName] at h1
      refine ⟨p.dropLast, s, x, ?_, (map_lower_eq he).1 h.2⟩
      rw [← h1]
      unfold fileName
      rw [List.getLastD_eq_getLast?, List.getLast?_eq_some_getLast hp]
      exact (List.dropLast_append_getLast hp).symm
    · rw [h2] at h; cases h
  · rintro ⟨d, s, x, rfl, hx⟩
    have hxd : '.' ∉ x := by
      intro h
      obtain ⟨i, hi, hxi⟩ := List.mem_iff_getElem.1 h
      have h2 := (List.forall₂_iff_get.1 hx).2 i hi (by rw [← hx.length_eq]; exact hi)
      have h3 : e[i]'(by rw [← hx.length_eq]; exact hi) ∈ e := List.getElem_mem _
      have key : ∀ b ∈ ['3', 'd', 's', 'o', 'b', 'j', 'f'], '.' ≠ b ∧ '.' ≠ b.toUpper := by decide
      simp only [List.get_eq_getElem, hxi] at h2
      rcases h2 with h2 | h2
      · exact (key _ (he _ h3)).1 h2
      · exact (key _ (he _ h3)).2 h2
    have hf : fileName (d ++ [s ++ '.' :: x]) = s ++ '.' :: x := by simp [fileName]
    rw [hf]
    rcases splitExt_spec (s ++ '.' :: x) with ⟨s', x', h1, h2, h3⟩ | ⟨h1, h2⟩
    · rw [h3]
      have hxx : x = x' := by
        have h4 := congrArg (fun l => l.reverse.takeWhile (fun c => c != '.')) h1
        simp only [List.reverse_append, List.reverse_cons, List.append_assoc, List.singleton_append] at h4
        rw [List.takeWhile_append_of_pos, List.takeWhile_append_of_pos] at h4
        · simpa using h4
        · intro c hc; simp only [bne_iff_ne, ne_eq]; rintro rfl; exact h2 (List.mem_reverse.1 hc)
        · intro c hc; simp only [bne_iff_ne, ne_eq]; rintro rfl; exact hxd (List.mem_reverse.1 hc)
      rw [← hxx, List.map_cons, hl, (map_lower_eq he).2 hx]
    · exact absurd (by simp) h1

/-- C31: by name, a handler is made exactly for the four formats, and for the formats of one file exactly when the name of the file ends in the extension, in small or
capital letters; in all the other cases runtime_error is thrown. -/
theorem C31_names (p : Path) (f : Text) (h : SceneFormat) :
    (sceneHandlerNamed p f = .ok h ↔
      (f = "3DS XML".toList ∧ h = .t3dsXml ∧ NamedLike p "3ds".toList) ∨ (f = "3DS".toList ∧ h = .t3ds ∧ NamedLike p "3ds".toList) ∨
      (f = "OFF".toList ∧ h = .off) ∨ (f = "OBJ".toList ∧ h = .obj ∧ NamedLike p "obj".toList)) ∧
    ((∀ h, sceneHandlerNamed p f ≠ .ok h) → sceneHandlerNamed p f = .thrown .runtimeError) := by
  have h3 : iequals (extension p) ".3ds".toList = true ↔ NamedLike p "3ds".toList := iequals_ext (e := "3ds".toList) (by decide)
  have ho : iequals (extension p) ".obj".toList = true ↔ NamedLike p "obj".toList := iequals_ext (e := "obj".toList) (by decide)
  rw [← h3, ← ho]
  exact C31_formats p f h

/-- C31: the buildings of a directory are the regular files named with the extension off, in small or capital letters, except those called terrain. -/
theorem C31_buildings (p : Path) (fs : Fs) (n : Text) :
    isBuildingFile p fs n = true ↔ (∃ t, fs (p ++ [n]) = some (.file t)) ∧ NamedLike (p ++ [n]) "off".toList ∧ ¬ (∃ x, '.' ∉ x ∧ n = "terrain.".toList ++ x) := by
  have ho : iequals (extension (p ++ [n])) ".off".toList = true ↔ NamedLike (p ++ [n]) "off".toList := iequals_ext (e := "off".toList) (by decide)
  unfold isBuildingFile
  rw [Bool.and_eq_true, Bool.and_eq_true, ho, and_assoc]
  refine and_congr ?_ ?_
  · cases fs (p ++ [n]) with
    | none => simp
    | some e => cases e <;> simp
  · refine and_congr_right fun hn => ?_
    have hf : fileName (p ++ [n]) = n := by simp [fileName]
    obtain ⟨d, s0, x0, h0, -⟩ := hn
    have hn0 : n = s0 ++ '.' :: x0 := by
      have := congrArg (fun l => l.getLastD []) h0
      simpa using this
    unfold stem
    rw [hf, bne_iff_ne, ne_eq, not_iff_not]
    rcases splitExt_spec n with ⟨s, x, h1, h2, h3⟩ | ⟨h1, -⟩
    · rw [h3]
      constructor
      · rintro rfl
        refine ⟨x, h2, ?_⟩
        rw [h1]
        have : "terrain.".toList = "terrain".toList ++ ['.'] := by decide
        rw [this, List.append_assoc]; rfl
      · rintro ⟨x', h4, h5⟩
        have : "terrain.".toList = "terrain".toList ++ ['.'] := by decide
        rw [this, List.append_assoc, h1] at h5
        have h6 := congrArg (fun l => (l.reverse.dropWhile (fun c => c != '.'))) h5
        simp only [List.reverse_append, List.reverse_cons, List.append_assoc, List.singleton_append] at h6
        rw [List.dropWhile_append_of_pos, List.dropWhile_append_of_pos] at h6
        · simpa using h6
        · intro c hc; simp only [bne_iff_ne, ne_eq]; rintro rfl; simp at hc; exact h4 hc
        · intro c hc; simp only [bne_iff_ne, ne_eq]; rintro rfl; exact h2 (List.mem_reverse.1 hc)
    · rw [hn0] at h1; exact absurd (by simp) h1

/-- Files named a.Obj and b.c.obj, but not obj nor a.obj.bak, are OBJ files. -/
example : NamedLike [['a', '.', 'O', 'b', 'j']] "obj".toList ∧ NamedLike [['d'], ['b', '.', 'c', '.', 'o', 'b', 'j']] "obj".toList ∧ ¬ NamedLike [['o', 'b', 'j']] "obj".toList := by
  refine ⟨⟨[], ['a'], ['O', 'b', 'j'], rfl, by decide⟩, ⟨[['d']], ['b', '.', 'c'], ['o', 'b', 'j'], rfl, by decide⟩, ?_⟩
  have h : iequals (extension [['o', 'b', 'j']]) ".obj".toList = true ↔ NamedLike [['o', 'b', 'j']] "obj".toList := iequals_ext (e := "obj".toList) (by decide)
  rw [← h]
  decide

end City.Props
