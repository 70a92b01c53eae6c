import Verif.Lemmas.Cut
import Verif.Props.Off
/-!
Property C92: a file in OFF notation that was cut short, by a crash of the writer or by a full disk, is noticed by the reader.
The theorems hold for every conversion `rnd` of decimals to doubles and both orders of evaluation `lf`.
-/
set_option exponentiation.threshold 2000
namespace City.Props
open City Spec

theorem count_unlines {ls : List Text} (h : ∀ l ∈ ls, '\n' ∉ l) : (unlines ls).count '\n' = ls.length := by
  induction ls with
  | nil => rfl
  | cons l ls ih =>
    rw [unlines_cons, List.count_append, List.count_cons_self, ih fun l hl => h l (by simp [hl]), List.count_eq_zero.2 (h l (by simp))]
    simp

/-- The comment line that comes first. -/
def commentLine (m : Mesh) : Text := ['#', ' ', 'M', 'e', 's', 'h', ':', ' '] ++ m.name

theorem write_lines (m : Mesh) : Off.write m = unlines (commentLine m :: Off.bodyLines m) := by
  simp [Off.write, unlines, Off.headerLines, Off.bodyLines, commentLine]

theorem body_ok (m : Mesh) : ∀ l ∈ Off.bodyLines m, '\n' ∉ l ∧ Off.isComment l = .ok false := by
  intro l hl
  simp only [Off.bodyLines, List.mem_cons, List.mem_append, List.mem_map] at hl
  rcases hl with rfl | rfl | ⟨p, -, rfl⟩ | ⟨f, -, rfl⟩
  · decide
  · exact Off.numLine_ok (Off.numLine_sizes _ _)
  · exact Off.numLine_ok (Off.numLine_point p)
  · exact Off.numLine_ok (Off.numLine_face f)

theorem lines_ok {m : Mesh} (hn : '\n' ∉ m.name) : ∀ l ∈ commentLine m :: Off.bodyLines m, '\n' ∉ l := by
  intro l hl
  rcases List.mem_cons.1 hl with rfl | hl
  · simpa [commentLine] using hn
  · exact (body_ok m l hl).1

theorem isComment_prefix {l q : Text} (h : Off.isComment l = .ok false) (hq : q <+: l) (h0 : q ≠ []) : Off.isComment q = .ok false := by
  match q, h0 with
  | c :: t, _ =>
    obtain ⟨r, rfl⟩ := hq
    simpa [Off.isComment] using h

/-- What the reader sees of a beginning of a written mesh: nothing, or some of the lines and a beginning of the next. -/
theorem cut_lines {m : Mesh} (hn : '\n' ∉ m.name) {p : Text} (hp : p <+: Off.write m) :
    (Off.parseLines (readlines p) = .ok [] ∧ p.count '\n' = 0) ∨
    ∃ i q, (q = [] ∨ ∃ l, (Off.bodyLines m)[i]? = some l ∧ q <+: l) ∧ p = unlines (commentLine m :: (Off.bodyLines m).take i) ++ q ∧
      Off.parseLines (readlines p) = .ok ((Off.bodyLines m).take i ++ if q = [] then [] else [q]) := by
  rw [write_lines] at hp
  obtain ⟨j, q, rfl, hq, hr⟩ := readlines_prefix (lines_ok hn) hp
  cases j with
  | zero =>
    left
    rw [hr]
    rcases hq with rfl | ⟨l, hl, hq⟩
    · exact ⟨rfl, by simp [unlines]⟩
    · simp at hl
      subst hl
      refine ⟨?_, ?_⟩
      · by_cases h0 : q = []
        · simp [h0, Off.parseLines]
        · match q, h0 with
          | c :: t, _ =>
            obtain ⟨r, hr⟩ := hq
            have : c = '#' := by
              have := congrArg List.head? hr
              simpa [commentLine] using this
            subst this
            simp [Off.parseLines, Off.isComment]
      · have : '\n' ∉ q := fun hm => lines_ok hn _ (by simp) (hq.subset hm)
        simp [unlines, List.count_eq_zero.2 this]
  | succ i =>
    right
    refine ⟨i, q, ?_, by rw [List.take_succ_cons], ?_⟩
    · simpa using hq
    · rw [hr, List.take_succ_cons, List.cons_append, Off.parseLines]
      have hc : Off.isComment (commentLine m) = .ok true := by simp [commentLine, Off.isComment]
      rw [hc, Out.ok_bind, Off.parseLines_keep]
      · rfl
      · intro l hl
        rcases List.mem_append.1 hl with hl | hl
        · exact (body_ok m l (List.mem_of_mem_take hl)).2
        · by_cases h0 : q = []
          · simp [h0] at hl
          · simp [h0] at hl
            subst hl
            rcases hq with rfl | ⟨k, hk, hq⟩
            · exact absurd rfl h0
            · simp at hk
              exact isComment_prefix (body_ok m k (List.mem_of_getElem? hk)).2 hq h0

theorem header_short {m : Mesh} (h : Holdable m) {lines : List Text} (hl : lines.length ≠ 2 + m.points.length + m.faces.length) :
    Off.readHeader lines (natText m.points.length ++ ' ' :: (natText m.faces.length ++ [' ', '0'])) = .thrown .rangeError := by
  have hp := h.small.1
  have hf := h.small.2.1
  have hsz : szMod = 2 ^ 64 := rfl
  unfold Off.readHeader
  rw [Off.scan_header (by omega) (by omega)]
  simp only [List.length_cons, List.length_nil, List.getD_cons_zero, List.getD_cons_succ]
  rw [if_neg (by omega), if_neg (by simp), if_pos]
  rw [Nat.mod_eq_of_lt (by omega)]
  exact hl

theorem header_cut {m : Mesh} (h : Holdable m) (h0 : m.points ≠ []) {l0 q : Text}
    (hq : q <+: natText m.points.length ++ ' ' :: (natText m.faces.length ++ [' ', '0'])) (hq0 : q ≠ []) :
    Off.readHeader [l0, q] q = .thrown .rangeError := by
  have hp := h.small.1
  have hf := h.small.2.1
  have hsz : szMod = 2 ^ 64 := rfl
  have hpos : 0 < m.points.length := List.length_pos_iff.2 h0
  rw [Off.sizes_sep] at hq
  have hall : ∀ n ∈ [m.points.length, m.faces.length, 0], n < szMod := by
    intro n hn
    simp at hn
    rcases hn with rfl | rfl | rfl <;> omega
  obtain ⟨hlen, hv⟩ := Off.scan_prefix hall hq
  have hne := Off.scan_prefix_ne_nil (hall _ (by simp)) hq hq0
  unfold Off.readHeader
  rcases hs : scanNats q with _ | ⟨a, r⟩
  · exact absurd hs hne
  rw [hs] at hv hlen
  simp only
  rw [if_neg (by simpa using hlen)]
  obtain ⟨n, hn, ha, hapos⟩ := hv 0 a rfl
  simp at hn
  subst hn
  have hb : r.getD 0 0 ≤ m.faces.length := by
    cases r with
    | nil => simp
    | cons b r =>
      obtain ⟨n, hn, hb, -⟩ := hv 1 b rfl
      simp at hn
      subst hn
      simpa using hb
  simp only [List.getD_cons_zero, List.getD_cons_succ]
  split
  · rfl
  · rw [if_pos]
    rw [Nat.mod_eq_of_lt (by omega)]
    simp only [List.length_cons, List.length_nil]
    have := hapos hpos
    omega

/-- Fewer lines than were written are refused. -/
theorem read_short (rnd : ℚ → ℚ) (lf : Bool) {m : Mesh} (h : Holdable m) (h0 : m.points ≠ []) {p : Text} {i : Nat} {q : Text}
    (hq : q = [] ∨ ∃ l, (Off.bodyLines m)[i]? = some l ∧ q <+: l)
    (hp : Off.parseLines (readlines p) = .ok ((Off.bodyLines m).take i ++ if q = [] then [] else [q]))
    (hl : ((Off.bodyLines m).take i ++ if q = [] then [] else [q]).length < 2 + m.points.length + m.faces.length) :
    ∃ e, Off.read rnd lf p = .thrown e := by
  unfold Off.read
  rw [hp, Out.ok_bind]
  match i with
  | 0 =>
    rcases hq with rfl | ⟨l, hl, hq⟩
    · exact ⟨_, rfl⟩
    · by_cases hq0 : q = []
      · subst hq0; exact ⟨_, rfl⟩
      · simp only [List.take_zero, if_neg hq0, List.nil_append]
        split
        · exact ⟨_, rfl⟩
        · exact ⟨_, rfl⟩
  | 1 =>
    simp only [Off.bodyLines, List.take_succ_cons, List.take_zero, List.cons_append, List.nil_append]
    rw [if_neg (by simp)]
    by_cases hq0 : q = []
    · subst hq0; exact ⟨_, rfl⟩
    · rcases hq with rfl | ⟨l, hl, hq⟩
      · exact absurd rfl hq0
      · simp [Off.bodyLines] at hl
        subst hl
        simp only [if_neg hq0]
        rw [header_cut h h0 hq hq0]
        exact ⟨_, rfl⟩
  | i + 2 =>
    simp only [Off.bodyLines, List.take_succ_cons, List.cons_append] at hl ⊢
    rw [if_neg (by simp)]
    rw [header_short h (Nat.ne_of_lt hl)]
    exact ⟨_, rfl⟩

/-- C92: a text cut anywhere before its last line begins is refused with an exception (for meshes with points). -/
theorem C92_refused_partial (rnd : ℚ → ℚ) (lf : Bool) (m : Mesh) (h : Holdable m) (hn : '\n' ∉ m.name) (h0 : m.points ≠ []) (body last p : Text)
    (hw : Off.write m = body ++ '\n' :: (last ++ ['\n'])) (hl : '\n' ∉ last) (hp : p <+: body ++ ['\n']) :
    ∃ e, Off.read rnd lf p = .thrown e := by
  have hpw : p <+: Off.write m := by
    rw [hw]
    exact hp.trans ⟨last ++ ['\n'], by simp⟩
  have hB : (Off.bodyLines m).length = 2 + m.points.length + m.faces.length := by
    simp [Off.bodyLines]; omega
  have hcount : (body ++ ['\n']).count '\n' = 2 + m.points.length + m.faces.length := by
    have := congrArg (List.count '\n') hw
    rw [write_lines, count_unlines (lines_ok hn), List.length_cons, hB] at this
    simp [List.count_eq_zero.2 hl] at this ⊢
    omega
  rcases cut_lines hn hpw with ⟨he, -⟩ | ⟨i, q, hq, hpe, hr⟩
  · unfold Off.read
    rw [he, Out.ok_bind]
    exact ⟨_, rfl⟩
  · refine read_short rnd lf h h0 hq hr ?_
    have hnl : ∀ l ∈ commentLine m :: (Off.bodyLines m).take i, '\n' ∉ l := fun l hl => lines_ok hn l (by
      rcases List.mem_cons.1 hl with rfl | hl
      · simp
      · exact List.mem_cons_of_mem _ (List.mem_of_mem_take hl))
    have hc : p.count '\n' = ((Off.bodyLines m).take i).length + 1 + q.count '\n' := by
      rw [hpe, List.count_append, count_unlines hnl, List.length_cons]
    have hqn : '\n' ∉ q := by
      rcases hq with rfl | ⟨l, hl, hq⟩
      · simp
      · exact fun hm => (body_ok m l (List.mem_of_getElem? hl)).1 (hq.subset hm)
    rw [List.count_eq_zero.2 hqn] at hc
    obtain ⟨r, hr⟩ := hp
    have hcr : p.count '\n' + r.count '\n' = 2 + m.points.length + m.faces.length := by
      rw [← List.count_append, hr, hcount]
    rw [List.length_append]
    by_cases hq0 : q = []
    · simp [hq0]; simp at hc; omega
    · simp only [if_neg hq0, List.length_singleton]
      -- something is missing, and it ends with a line break
      have : 0 < r.count '\n' := by
        rw [List.count_pos_iff]
        rcases List.eq_nil_or_concat r with rfl | ⟨r', c, rfl⟩
        · exfalso
          rw [List.append_nil] at hr
          have e := congrArg List.getLast? hr
          rw [hpe, List.getLast?_append_of_ne_nil _ hq0] at e
          simp at e
          exact hqn (List.mem_of_getLast? e)
        · have e := congrArg List.getLast? hr
          simp at e
          subst e
          simp
      omega

theorem mapM_concat {α β : Type} (f : α → Out β) (as : List α) (a : α) :
    Out.mapM f (as ++ [a]) = (Out.mapM f as >>= fun bs => f a >>= fun b => .ok (bs ++ [b])) := by
  induction as with
  | nil =>
    simp only [List.nil_append, Out.mapM_cons, Out.mapM_nil, Out.ok_bind]
  | cons x xs ih =>
    rw [List.cons_append, Out.mapM_cons, ih, Out.mapM_cons]
    cases f x with
    | ok b => cases Out.mapM f xs with
      | ok bs => cases f a <;> rfl
      | thrown e => rfl
      | ub => rfl
    | thrown e => rfl
    | ub => rfl

/-- What is read when only the last line, a face, is changed. -/
theorem read_last (rnd : ℚ → ℚ) (lf : Bool) {m : Mesh} (h : Holdable m) {fs : List Face} {f : Face} (hf : m.faces = fs ++ [f]) {p q : Text}
    (hp : Off.parseLines (readlines p) = .ok ((Off.bodyLines m).dropLast ++ [q])) :
    Off.read rnd lf p = (Off.parseFace q >>= fun g => .ok (Mesh.makeAnon (m.points.map (Off.readPt rnd)) (fs ++ [g]))) := by
  have hs := h.small
  have hsz : szMod = 2 ^ 64 := rfl
  have hlen : m.faces.length = fs.length + 1 := by simp [hf]
  have hB : (Off.bodyLines m).dropLast = ['O', 'F', 'F'] :: (natText m.points.length ++ ' ' :: (natText m.faces.length ++ [' ', '0'])) ::
      (m.points.map Off.pointText ++ fs.map Off.faceText) := by
    have : Off.bodyLines m = (['O', 'F', 'F'] :: (natText m.points.length ++ ' ' :: (natText m.faces.length ++ [' ', '0'])) ::
      (m.points.map Off.pointText ++ fs.map Off.faceText)) ++ [Off.faceText f] := by
      simp only [Off.bodyLines, hf, List.map_append, List.map_cons, List.map_nil, List.cons_append, List.append_assoc]
    rw [this, List.dropLast_concat]
  rw [hB] at hp
  unfold Off.read
  rw [hp, Out.ok_bind]
  simp only [List.cons_append]
  rw [if_neg (by simp)]
  set L := ['O', 'F', 'F'] :: (natText m.points.length ++ ' ' :: (natText m.faces.length ++ [' ', '0'])) ::
      (m.points.map Off.pointText ++ fs.map Off.faceText ++ [q]) with hL
  have hh : Off.readHeader L (natText m.points.length ++ ' ' :: (natText m.faces.length ++ [' ', '0'])) =
      .ok (m.points.length, m.faces.length) := by
    unfold Off.readHeader
    rw [Off.scan_header (by omega) (by omega)]
    simp only [List.length_cons, List.length_nil, List.getD_cons_zero, List.getD_cons_succ]
    rw [if_neg (by omega), if_neg (by simp), if_neg]
    simp only [hL, List.length_cons, List.length_append, List.length_map, not_not]
    rw [Nat.mod_eq_of_lt (by omega)]
    simp
    omega
  rw [hh, Out.ok_bind]
  have h1 : Off.readPoints rnd L m.points.length = .ok (m.points.map (Off.readPt rnd)) := by
    unfold Off.readPoints Off.slice
    rw [if_neg (by omega), if_pos (by simp [hL]; omega), Out.ok_bind]
    have : (L.drop 2).take m.points.length = m.points.map Off.pointText := by
      simp [hL, List.take_left']
    rw [this, Out.mapM_eq_ok, List.forall₂_map_left_iff, List.forall₂_map_right_iff]
    exact List.forall₂_same.2 fun p hp => Off.parsePoint_pointText rnd (h.finite p hp)
  have h2 : Off.readFaces L ((2 + m.points.length) % szMod) m.faces.length = (Off.parseFace q >>= fun g => .ok (fs ++ [g])) := by
    rw [Nat.mod_eq_of_lt (by omega)]
    unfold Off.readFaces Off.slice
    rw [if_neg (by omega), if_pos (by simp [hL]; omega), Out.ok_bind]
    have : (L.drop (2 + m.points.length)).take m.faces.length = fs.map Off.faceText ++ [q] := by
      rw [Nat.add_comm, ← List.drop_drop, List.drop_drop, Nat.add_comm, ← List.drop_drop]
      simp only [hL, List.drop_succ_cons, List.drop_zero, List.append_assoc]
      rw [List.drop_left' (by simp), List.take_of_length_le (by simp; omega)]
    rw [this, mapM_concat]
    have : Out.mapM Off.parseFace (fs.map Off.faceText) = .ok fs := by
      rw [Out.mapM_eq_ok, List.forall₂_map_left_iff]
      refine List.forall₂_same.2 fun g hg => ?_
      have hm : g ∈ m.faces := by rw [hf]; simp [hg]
      exact Off.parseFace_faceText (h.degree g hm) (h.small.2.2 g hm) (h.index g hm)
    rw [this, Out.ok_bind]
  simp only at h1 h2 ⊢
  rw [h1, h2]
  cases Off.parseFace q <;> cases lf <;> rfl

/-- C92: wherever the text of a mesh with faces is cut, the reader throws or returns all the points and all the faces but the last as they would have been read
from the whole text. -/
theorem C92_cut_partial (rnd : ℚ → ℚ) (lf : Bool) (m : Mesh) (h : Holdable m) (hn : '\n' ∉ m.name) (h0 : m.points ≠ []) (hf : m.faces ≠ []) (p : Text)
    (hp : p <+: Off.write m) :
    (∃ e, Off.read rnd lf p = .thrown e) ∨
      ∃ full r f, Off.read rnd lf (Off.write m) = .ok full ∧ Off.read rnd lf p = .ok r ∧ r.points = full.points ∧ r.bbox = full.bbox ∧
        r.faces = full.faces.dropLast ++ [f] ∧ full.faces = m.faces := by
  have hB : (Off.bodyLines m).length = 2 + m.points.length + m.faces.length := by
    simp [Off.bodyLines]; omega
  obtain ⟨fs, f, hfs⟩ : ∃ fs f, m.faces = fs ++ [f] := by
    rcases List.eq_nil_or_concat m.faces with h' | ⟨fs, f, h'⟩
    · exact absurd h' hf
    · exact ⟨fs, f, by simpa using h'⟩
  have hfm : f ∈ m.faces := by rw [hfs]; simp
  have hlast : ∃ l, (Off.bodyLines m) = (Off.bodyLines m).dropLast ++ [l] ∧ l = Off.faceText f := by
    refine ⟨_, ?_, rfl⟩
    have : Off.bodyLines m = (['O', 'F', 'F'] :: (natText m.points.length ++ ' ' :: (natText m.faces.length ++ [' ', '0'])) ::
      (m.points.map Off.pointText ++ fs.map Off.faceText)) ++ [Off.faceText f] := by
      simp only [Off.bodyLines, hfs, List.map_append, List.map_cons, List.map_nil, List.cons_append, List.append_assoc]
    rw [this, List.dropLast_concat]
  obtain ⟨l, hl, rfl⟩ := hlast
  have hfull := read_write rnd lf m h hn
  rcases cut_lines hn hp with ⟨he, -⟩ | ⟨i, q, hq, hpe, hr⟩
  · left
    unfold Off.read
    rw [he, Out.ok_bind]
    exact ⟨_, rfl⟩
  · by_cases hs : ((Off.bodyLines m).take i ++ if q = [] then [] else [q]).length < 2 + m.points.length + m.faces.length
    · exact .inl (read_short rnd lf h h0 hq hr hs)
    · -- the last line has begun
      have hrl : ∃ q', q' <+: Off.faceText f ∧ q' ≠ [] ∧ (Off.bodyLines m).take i ++ (if q = [] then [] else [q]) = (Off.bodyLines m).dropLast ++ [q'] := by
        have hft : Off.faceText f ≠ [] := by simp [Off.faceText]
        by_cases hq0 : q = []
        · rw [if_pos hq0, List.append_nil] at hs ⊢
          rw [List.length_take] at hs
          refine ⟨Off.faceText f, List.prefix_refl _, hft, ?_⟩
          rw [List.take_of_length_le (by omega)]
          exact hl
        · rw [if_neg hq0] at hs ⊢
          rcases hq with rfl | ⟨k, hk, hq⟩
          · exact absurd rfl hq0
          · have hi : i < (Off.bodyLines m).length := by
              by_contra hge
              rw [List.getElem?_eq_none (by omega)] at hk
              cases hk
            rw [List.length_append, List.length_take, List.length_singleton] at hs
            have hi' : i = (Off.bodyLines m).length - 1 := by omega
            have hki : k = Off.faceText f := by
              rw [hl, hi', hl] at hk
              simpa using hk.symm
            subst hki
            refine ⟨q, hq, hq0, ?_⟩
            rw [hi', List.dropLast_eq_take]
      obtain ⟨q', hq', hq0', hqe⟩ := hrl
      rw [hqe] at hr
      have hrd := read_last rnd lf h hfs hr
      have hnu := Off.parseFace_prefix (h.small.2.2 f hfm) (h.index f hfm) hq' hq0'
      rw [hrd, hfull]
      cases hpf : Off.parseFace q' with
      | ub => exact absurd hpf hnu
      | thrown e => exact .inl ⟨e, rfl⟩
      | ok g => exact .inr ⟨_, _, g, rfl, rfl, rfl, rfl, by simp [Mesh.makeAnon, Mesh.make, hfs], rfl⟩

/-- C92: if only whole lines arrived, as `std::endl` makes likely, a text that is not complete is refused. -/
theorem C92_lines_partial (rnd : ℚ → ℚ) (lf : Bool) (m : Mesh) (h : Holdable m) (hn : '\n' ∉ m.name) (h0 : m.points ≠ []) (p a : Text)
    (hp : p <+: Off.write m) (ha : p = a ++ ['\n']) (hne : p ≠ Off.write m) : ∃ e, Off.read rnd lf p = .thrown e := by
  have hB : (Off.bodyLines m).length = 2 + m.points.length + m.faces.length := by
    simp [Off.bodyLines]; omega
  rcases cut_lines hn hp with ⟨-, he⟩ | ⟨i, q, hq, hpe, hr⟩
  · rw [ha] at he; simp at he
  · have hq0 : q = [] := by
      by_contra hq0
      have e := congrArg List.getLast? (hpe.symm.trans ha)
      rw [List.getLast?_append_of_ne_nil _ hq0] at e
      simp at e
      rcases hq with rfl | ⟨l, hl, hq⟩
      · exact hq0 rfl
      · exact (body_ok m l (List.mem_of_getElem? hl)).1 (hq.subset (List.mem_of_getLast? e))
    subst hq0
    refine read_short rnd lf h h0 (.inl rfl) hr ?_
    simp only [if_true, List.append_nil, List.length_take] at hpe ⊢
    by_contra hge
    rw [List.take_of_length_le (by omega)] at hpe
    exact hne (hpe.trans (write_lines m).symm)

/-- C92: only the last line break is missing: nothing is lost. -/
theorem C92_last_break (rnd : ℚ → ℚ) (lf : Bool) (m : Mesh) (hn : '\n' ∉ m.name) (p : Text) (hw : Off.write m = p ++ ['\n']) :
    Off.read rnd lf p = Off.read rnd lf (Off.write m) := by
  have hr : readlines p = readlines (Off.write m) := by
    have hls := lines_ok hn
    rw [write_lines] at hw ⊢
    rw [readlines_unlines hls]
    obtain ⟨ls, l, hl⟩ : ∃ ls l, commentLine m :: Off.bodyLines m = ls ++ [l] := by
      rcases List.eq_nil_or_concat (commentLine m :: Off.bodyLines m) with h' | ⟨ls, l, h'⟩
      · cases h'
      · exact ⟨ls, l, by simpa using h'⟩
    have hl0 : l ≠ [] := by
      have : l ∈ commentLine m :: Off.bodyLines m := by rw [hl]; simp
      rcases List.mem_cons.1 this with rfl | hm
      · simp [commentLine]
      · intro h0
        have := (body_ok m l hm).2
        rw [h0] at this
        cases this
    rw [hl, unlines_append] at hw
    have : p = unlines ls ++ l := by
      have : unlines ls ++ l ++ ['\n'] = p ++ ['\n'] := by rw [← hw]; simp [unlines]
      exact (List.append_left_inj _ |>.1 this).symm
    have hll : '\n' ∉ l := hls l (by rw [hl]; simp)
    rw [this, readlines_unlines_append (fun k hk => hls k (by rw [hl]; simp [hk])), readlines_single hll, if_neg hl0, hl]
  unfold Off.read
  rw [hr]

theorem sepText_concat (is : List Nat) (h : is ≠ []) (k : Nat) : Off.sepText (is ++ [k]) = Off.sepText is ++ ' ' :: natText k := by
  induction is with
  | nil => exact absurd rfl h
  | cons a is ih =>
    cases is with
    | nil => simp [Off.sepText]
    | cons b is =>
      have := ih (by simp)
      simp only [List.cons_append, Off.sepText, List.append_assoc] at this ⊢
      rw [this]

theorem sepText_prefix_ok {q : Text} {f : Face} (hq : q <+: Off.faceText f) (h0 : q ≠ []) : '\n' ∉ q ∧ Off.isComment q = .ok false :=
  ⟨fun hm => (Off.numLine_ok (Off.numLine_face f)).1 (hq.subset hm), isComment_prefix (Off.numLine_ok (Off.numLine_face f)).2 hq h0⟩

/-- The lines seen when the last line is another one. -/
theorem parse_replaced {m : Mesh} (hn : '\n' ∉ m.name) {q : Text} (hq : '\n' ∉ q ∧ Off.isComment q = .ok false) :
    Off.parseLines (readlines (unlines (commentLine m :: (Off.bodyLines m).dropLast) ++ q)) = .ok ((Off.bodyLines m).dropLast ++ [q]) := by
  have hq0 : q ≠ [] := by
    rintro rfl
    cases hq.2
  rw [readlines_unlines_append, readlines_single hq.1, if_neg hq0, List.cons_append, Off.parseLines]
  · have hc : Off.isComment (commentLine m) = .ok true := by simp [commentLine, Off.isComment]
    rw [hc, Out.ok_bind, Off.parseLines_keep]
    · rfl
    · intro l hl
      rcases List.mem_append.1 hl with hl | hl
      · exact (body_ok m l (List.mem_of_mem_dropLast hl)).2
      · simp at hl; subst hl; exact hq.2
  · intro l hl
    rcases List.mem_cons.1 hl with rfl | hl
    · simpa [commentLine] using hn
    · exact (body_ok m l (List.mem_of_mem_dropLast hl)).1

/-- C92: in general, when the last index of the last face did not arrive, the text is read as a mesh with 0 in its place, without an exception. -/
theorem C92_index_lost (rnd : ℚ → ℚ) (lf : Bool) (m : Mesh) (h : Holdable m) (hn : '\n' ∉ m.name) (fs : List Face) (is : List Nat) (k : Nat)
    (hf : m.faces = fs ++ [⟨is ++ [k]⟩]) (p : Text) (hw : Off.write m = p ++ ' ' :: (natText k ++ ['\n'])) :
    ∃ r, Off.read rnd lf p = .ok r ∧ r.faces = fs ++ [⟨is ++ [0]⟩] := by
  have hm : (⟨is ++ [k]⟩ : Face) ∈ m.faces := by rw [hf]; simp
  have hd := h.degree _ hm
  have hd60 := h.small.2.2 _ hm
  simp only [Face.degree, List.length_append, List.length_singleton] at hd hd60
  have his : is ≠ [] := by rintro rfl; simp at hd
  have hB : Off.bodyLines m = (Off.bodyLines m).dropLast ++ [Off.faceText ⟨is ++ [k]⟩] := by
    have : Off.bodyLines m = (['O', 'F', 'F'] :: (natText m.points.length ++ ' ' :: (natText m.faces.length ++ [' ', '0'])) ::
      (m.points.map Off.pointText ++ fs.map Off.faceText)) ++ [Off.faceText ⟨is ++ [k]⟩] := by
      simp only [Off.bodyLines, hf, List.map_append, List.map_cons, List.map_nil, List.cons_append, List.append_assoc]
    rw [this, List.dropLast_concat]
  have hft : Off.faceText ⟨is ++ [k]⟩ = (natText (is.length + 1) ++ ' ' :: Off.sepText is) ++ ' ' :: natText k := by
    simp only [Off.faceText, List.length_append, List.length_singleton, sepText_concat is his, List.append_assoc, List.cons_append]
  have hp : p = unlines (commentLine m :: (Off.bodyLines m).dropLast) ++ (natText (is.length + 1) ++ ' ' :: Off.sepText is) := by
    rw [write_lines, hB, ← List.cons_append, unlines_append, unlines_cons (Off.faceText _), hft] at hw
    have : unlines (commentLine m :: (Off.bodyLines m).dropLast) ++ (natText (is.length + 1) ++ ' ' :: Off.sepText is) ++ (' ' :: (natText k ++ ['\n'])) =
        p ++ (' ' :: (natText k ++ ['\n'])) := by
      rw [← hw]; simp [unlines]
    exact (List.append_left_inj _ |>.1 this).symm
  have hq : natText (is.length + 1) ++ ' ' :: Off.sepText is <+: Off.faceText ⟨is ++ [k]⟩ := ⟨_, hft.symm⟩
  have hr := read_last rnd lf h hf (p := p) (by rw [hp]; exact parse_replaced hn (sepText_prefix_ok hq (by simp)))
  have hi : ∀ n ∈ is, n < szMod := fun n hn => h.index _ hm n (by simp [hn])
  have hpf : Off.parseFace (natText (is.length + 1) ++ ' ' :: Off.sepText is) = .ok ⟨is ++ [0]⟩ := by
    have hsz : szMod = 2 ^ 64 := rfl
    unfold Off.parseFace
    rw [scanNat_natText (by omega) (stop_space (by decide))]
    simp only
    rw [scanNats_space (by decide), Off.sepText_scan hi]
    unfold Off.fillIndexes Face.mk?
    rw [if_neg (by omega), if_neg (by omega), if_neg]
    · simp
    · simp; omega
  rw [hr, hpf, Out.ok_bind]
  exact ⟨_, rfl, rfl⟩

/-- C92: in general, when a mesh without faces is cut in its last line, after the first coordinate, reading is undefined. -/
theorem C92_point_lost (rnd : ℚ → ℚ) (lf : Bool) (m : Mesh) (h : Holdable m) (hn : '\n' ∉ m.name) (ps : List (V3 ℚ)) (x : V3 ℚ)
    (hf : m.faces = []) (hps : m.points = ps ++ [x]) (p : Text)
    (hw : Off.write m = p ++ ' ' :: (dblText x.y ++ ' ' :: (dblText x.z ++ ['\n']))) : Off.read rnd lf p = .ub := by
  have hs := h.small
  have hsz : szMod = 2 ^ 64 := rfl
  have hB' : Off.bodyLines m = (['O', 'F', 'F'] :: (natText m.points.length ++ ' ' :: (natText m.faces.length ++ [' ', '0'])) ::
      ps.map Off.pointText) ++ [Off.pointText x] := by
    simp only [Off.bodyLines, hf, hps, List.map_append, List.map_cons, List.map_nil, List.cons_append, List.append_nil]
  have hB : Off.bodyLines m = (Off.bodyLines m).dropLast ++ [Off.pointText x] := by rw [hB', List.dropLast_concat]
  have hpt : Off.pointText x = dblText x.x ++ ' ' :: (dblText x.y ++ ' ' :: dblText x.z) := rfl
  have hp : p = unlines (commentLine m :: (Off.bodyLines m).dropLast) ++ dblText x.x := by
    rw [write_lines, hB, ← List.cons_append, unlines_append, unlines_cons (Off.pointText _), hpt] at hw
    have : unlines (commentLine m :: (Off.bodyLines m).dropLast) ++ dblText x.x ++ (' ' :: (dblText x.y ++ ' ' :: (dblText x.z ++ ['\n']))) =
        p ++ (' ' :: (dblText x.y ++ ' ' :: (dblText x.z ++ ['\n']))) := by
      rw [← hw]; simp [unlines]
    exact (List.append_left_inj _ |>.1 this).symm
  have hq0 : dblText x.x ≠ [] := (Off.dblText_numChar x.x).2
  have hq : '\n' ∉ dblText x.x ∧ Off.isComment (dblText x.x) = .ok false := by
    have hpre : dblText x.x <+: Off.pointText x := ⟨_, rfl⟩
    exact ⟨fun hm => (Off.numLine_ok (Off.numLine_point x)).1 (hpre.subset hm),
      isComment_prefix (Off.numLine_ok (Off.numLine_point x)).2 hpre hq0⟩
  have hparse := parse_replaced hn hq
  rw [← hp, hB', List.dropLast_concat] at hparse
  have hlen : m.points.length = ps.length + 1 := by simp [hps]
  unfold Off.read
  rw [hparse, Out.ok_bind]
  simp only [List.cons_append]
  rw [if_neg (by simp)]
  set L := ['O', 'F', 'F'] :: (natText m.points.length ++ ' ' :: (natText m.faces.length ++ [' ', '0'])) ::
      (ps.map Off.pointText ++ [dblText x.x]) with hL
  have hh : Off.readHeader L (natText m.points.length ++ ' ' :: (natText m.faces.length ++ [' ', '0'])) =
      .ok (m.points.length, m.faces.length) := by
    unfold Off.readHeader
    rw [Off.scan_header (by omega) (by omega)]
    simp only [List.length_cons, List.length_nil, List.getD_cons_zero, List.getD_cons_succ]
    rw [if_neg (by omega), if_neg (by simp), if_neg]
    simp only [hL, List.length_cons, List.length_append, List.length_map, not_not]
    rw [Nat.mod_eq_of_lt (by omega)]
    simp [hf]
    omega
  rw [hh, Out.ok_bind]
  have h1 : Off.readPoints rnd L m.points.length = .ub := by
    unfold Off.readPoints Off.slice
    rw [if_neg (by omega), if_pos (by simp [hL]; omega), Out.ok_bind]
    have : (L.drop 2).take m.points.length = ps.map Off.pointText ++ [dblText x.x] := by
      simp only [hL, List.drop_succ_cons, List.drop_zero]
      rw [List.take_of_length_le (by simp; omega)]
    rw [this, mapM_concat]
    have hok : Out.mapM (Off.parsePoint rnd) (ps.map Off.pointText) = .ok (ps.map (Off.readPt rnd)) := by
      rw [Out.mapM_eq_ok, List.forall₂_map_left_iff, List.forall₂_map_right_iff]
      exact List.forall₂_same.2 fun y hy => Off.parsePoint_pointText rnd (h.finite y (by rw [hps]; simp [hy]))
    have hub : Off.parsePoint rnd (dblText x.x) = .ub := by
      have := scanDecs_dblText rnd (h.finite x (by rw [hps]; simp)).1 stop_nil
      rw [List.append_nil, scanDecs_nil] at this
      unfold Off.parsePoint
      rw [this]
    rw [hok, Out.ok_bind, hub]
    rfl
  have h2 : Off.readFaces L ((2 + m.points.length) % szMod) m.faces.length = .ok [] := by
    rw [Nat.mod_eq_of_lt (by omega), hf]
    unfold Off.readFaces Off.slice
    rw [List.length_nil, if_neg (by omega), if_pos (by simp [hL]; omega), Out.ok_bind]
    simp
  simp only at h1 h2 ⊢
  rw [h1, h2]
  cases lf <;> rfl

/-- C92 (full statement, false of the code): whatever beginning of the text of a valid mesh is found, the reader throws or returns the mesh of the whole
text. -/
def C92_full : Prop :=
  ∀ (rnd : ℚ → ℚ) (lf : Bool) (m : Mesh), Holdable m → '\n' ∉ m.name → Valid m → m.points ≠ [] → ∀ p, p <+: Off.write m →
    (∃ e, Off.read rnd lf p = .thrown e) ∨ Off.read rnd lf p = Off.read rnd lf (Off.write m)

/-- A mesh with one triangle. -/
def kite : Mesh := Mesh.make ['k'] [⟨0, 0, 0⟩, ⟨1, 0, 0⟩, ⟨0, 1, 0⟩] [⟨[0, 1, 2]⟩]

theorem kite_holdable : Holdable kite := by
  refine ⟨?_, by decide, by decide, by decide⟩
  intro p hp
  simp only [kite, Mesh.make, List.mem_cons, List.not_mem_nil, or_false] at hp
  rcases hp with rfl | rfl | rfl <;> simp [FinitePoint, dblMax] <;> norm_num

/-- C92 refuted: without its last characters, the text of a triangle 0 1 2 is read as the triangle 0 1 0. -/
theorem C92_refuted : ¬ C92_full := by
  intro hC
  obtain ⟨t, ht⟩ : ∃ t, Off.write kite = t ++ ' ' :: (natText 2 ++ ['\n']) := by
    refine ⟨unlines (commentLine kite :: (Off.bodyLines kite).dropLast) ++ (natText 3 ++ ' ' :: Off.sepText [0, 1]), ?_⟩
    rw [write_lines]
    simp [unlines, Off.bodyLines, kite, Mesh.make, Off.faceText, Off.sepText]
  obtain ⟨r, hr, hrf⟩ := C92_index_lost id true kite kite_holdable (by decide) [] [0, 1] 2 rfl t ht
  have hfull := read_write id true kite kite_holdable (by decide)
  rcases hC id true kite kite_holdable (by decide) (by decide) (by decide) t ⟨_, ht.symm⟩ with ⟨e, he⟩ | he
  · rw [hr] at he; cases he
  · rw [hr, hfull] at he
    cases he
    revert hrf
    simp [Mesh.makeAnon, Mesh.make, kite]

/-- The hypotheses of the theorems of C92 are met by the triangle and every one of its beginnings, among them one that is cut in the middle of a point. -/
example : Holdable kite ∧ '\n' ∉ kite.name ∧ kite.points ≠ [] ∧ kite.faces ≠ [] ∧ (∀ k, (Off.write kite).take k <+: Off.write kite) ∧
    ∃ e, Off.read id true ((Off.write kite).take 18) = .thrown e := by
  refine ⟨kite_holdable, by decide, by decide, by decide, fun k => List.take_prefix _ _, ?_⟩
  set body := unlines (commentLine kite :: (Off.bodyLines kite).dropLast.dropLast) ++ Off.pointText ⟨0, 1, 0⟩ with hb
  have hw : Off.write kite = body ++ '\n' :: (Off.faceText ⟨[0, 1, 2]⟩ ++ ['\n']) := by
    rw [write_lines, hb]
    simp [unlines, Off.bodyLines, kite, Mesh.make]
  refine C92_refused_partial id true kite kite_holdable (by decide) (by decide) body _ _ hw (Off.numLine_ok (Off.numLine_face _)).1 ?_
  rw [List.prefix_iff_eq_take, hw]
  have hlen : 18 ≤ (body ++ ['\n']).length := by
    have : ∀ n, 1 ≤ (natText n).length := fun n => List.length_pos_iff.2 (natText_ne_nil n)
    have h3 := this 3
    have h1 := this 1
    simp [hb, unlines, Off.bodyLines, kite, Mesh.make, commentLine, Off.pointText]
    omega
  rw [show body ++ '\n' :: (Off.faceText ⟨[0, 1, 2]⟩ ++ ['\n']) = (body ++ ['\n']) ++ (Off.faceText ⟨[0, 1, 2]⟩ ++ ['\n']) by simp,
    List.take_append_of_le_length hlen, List.length_take, min_eq_left hlen]

end City.Props
