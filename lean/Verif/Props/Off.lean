import Verif.Lemmas.Off
import Verif.Spec.Off
import Verif.Spec.Mesh
import Verif.Spec.Face
/-!
Properties C18 - C21: the OFF stream. All theorems hold for every conversion `rnd` of decimals to doubles and both
orders of evaluation `lf` of the arguments at off_stream.h:113-123.
-/
set_option exponentiation.threshold 2000
namespace City.Props
open City Spec

theorem read_write (rnd : ℚ → ℚ) (lf : Bool) (m : Mesh) (h : Holdable m) (hn : '\n' ∉ m.name) :
    Off.read rnd lf (Off.write m) = .ok (Mesh.makeAnon (m.points.map (Off.readPt rnd)) m.faces) := by
  have hp := h.small.1
  have hf := h.small.2.1
  have hsz : szMod = 2 ^ 64 := rfl
  unfold Off.read
  rw [Off.parse_write hn, Out.ok_bind]
  simp only [Off.bodyLines]
  rw [if_neg (by simp)]
  have hh : Off.readHeader (Off.bodyLines m)
      (natText m.points.length ++ ' ' :: (natText m.faces.length ++ [' ', '0'])) =
      .ok (m.points.length, m.faces.length) := by
    unfold Off.readHeader
    rw [Off.scan_header (by omega) (by omega)]
    simp only [List.length_cons, List.length_nil, List.getD_cons_zero, List.getD_cons_succ]
    rw [if_neg (by omega), if_neg (by simp), if_neg]
    simp only [Off.bodyLines, List.length_cons, List.length_append, List.length_map, not_not]
    rw [Nat.mod_eq_of_lt (by omega)]
    omega
  simp only [Off.bodyLines] at hh
  rw [hh, Out.ok_bind]
  have h1 : Off.readPoints rnd (Off.bodyLines m) m.points.length = .ok (m.points.map (Off.readPt rnd)) := by
    unfold Off.readPoints Off.slice
    rw [if_neg (by omega), if_pos (by simp [Off.bodyLines]; omega), Out.ok_bind]
    have : ((Off.bodyLines m).drop 2).take m.points.length = m.points.map Off.pointText := by
      simp [Off.bodyLines, List.take_left']
    rw [this, Out.mapM_eq_ok, List.forall₂_map_left_iff, List.forall₂_map_right_iff]
    exact List.forall₂_same.2 fun p hp => Off.parsePoint_pointText rnd (h.finite p hp)
  have h2 : Off.readFaces (Off.bodyLines m) ((2 + m.points.length) % szMod) m.faces.length = .ok m.faces := by
    rw [Nat.mod_eq_of_lt (by omega)]
    unfold Off.readFaces Off.slice
    rw [if_neg (by omega), if_pos (by simp [Off.bodyLines]; omega), Out.ok_bind]
    have : ((Off.bodyLines m).drop (2 + m.points.length)).take m.faces.length = m.faces.map Off.faceText := by
      rw [Nat.add_comm, ← List.drop_drop, List.drop_drop, Nat.add_comm, ← List.drop_drop]
      simp only [Off.bodyLines, List.drop_succ_cons, List.drop_zero]
      rw [List.drop_left' (by simp), List.take_of_length_le (by simp)]
    rw [this, Out.mapM_eq_ok, List.forall₂_map_left_iff]
    exact List.forall₂_same.2 fun f hf => Off.parseFace_faceText (h.degree f hf) (h.small.2.2 f hf) (h.index f hf)
  simp only [Off.bodyLines] at h1 h2
  rw [show Out.both lf _ _ = .ok (m.points.map (Off.readPt rnd), m.faces) from Out.both_ok.2 ⟨h1, h2⟩, Out.ok_bind]

/-- C18: reading what was written gives the same faces, the same number of points, each coordinate being what is read
back from the printed coordinate (see C22 for the loss), and the box of the points read. -/
theorem C18_round_trip (rnd : ℚ → ℚ) (lf : Bool) (m : Mesh) (h : Holdable m) (hn : '\n' ∉ m.name) :
    ∃ r, Off.read rnd lf (Off.write m) = .ok r ∧ r.faces = m.faces ∧ r.name = [] ∧ r.bbox = Mesh.computeBbox r.points ∧
      List.Forall₂ (fun p q : V3 ℚ => scanDecs rnd (dblText p.x) = [q.x] ∧ scanDecs rnd (dblText p.y) = [q.y] ∧
        scanDecs rnd (dblText p.z) = [q.z]) m.points r.points := by
  refine ⟨_, read_write rnd lf m h hn, rfl, rfl, rfl, ?_⟩
  simp only [Mesh.makeAnon, Mesh.make]
  rw [List.forall₂_map_right_iff]
  apply List.forall₂_same.2
  intro p hp
  have key : ∀ x : ℚ, |x| ≤ dblMax → scanDecs rnd (dblText x) = [rnd (round6 x)] := by
    intro x hx
    have := scanDecs_dblText rnd hx stop_nil
    rwa [List.append_nil, scanDecs_nil] at this
  have hf := h.finite p hp
  exact ⟨key _ hf.1, key _ hf.2.1, key _ hf.2.2⟩

/-- C18: if all coordinates have at most six significant digits (and are doubles: `rnd` keeps them) the mesh comes
back equal: same points, same faces. -/
theorem C18_exact (rnd : ℚ → ℚ) (lf : Bool) (m : Mesh) (h : Holdable m) (hn : '\n' ∉ m.name) (hd : FewDigitsMesh m)
    (hr : ∀ p ∈ m.points, rnd p.x = p.x ∧ rnd p.y = p.y ∧ rnd p.z = p.z) :
    ∃ r, Off.read rnd lf (Off.write m) = .ok r ∧ r.points = m.points ∧ r.faces = m.faces := by
  refine ⟨_, read_write rnd lf m h hn, ?_, rfl⟩
  simp only [Mesh.makeAnon, Mesh.make]
  conv_rhs => rw [← List.map_id m.points]
  apply List.map_congr_left
  intro p hp
  obtain ⟨d1, d2, d3⟩ := hd p hp
  obtain ⟨r1, r2, r3⟩ := hr p hp
  simp [Off.readPt, round6_exact d1, round6_exact d2, round6_exact d3, r1, r2, r3]

/-- C18: the polygons of a valid mesh with few digits are those of the mesh read back. -/
theorem C18_polygons (rnd : ℚ → ℚ) (lf : Bool) (m : Mesh) (h : Holdable m) (hn : '\n' ∉ m.name) (hd : FewDigitsMesh m)
    (hr : ∀ p ∈ m.points, rnd p.x = p.x ∧ rnd p.y = p.y ∧ rnd p.z = p.z) (hv : Valid m) :
    ∃ r, Off.read rnd lf (Off.write m) = .ok r ∧ polygons r = polygons m ∧ Valid r := by
  obtain ⟨r, h1, h2, h3⟩ := C18_exact rnd lf m h hn hd hr
  refine ⟨r, h1, ?_, ?_⟩
  · simp [polygons, h2, h3]
  · intro f hf i hi
    rw [h2]; rw [h3] at hf
    exact hv f hf i hi

/-- C18: a line break in the name is not escaped: the file cannot be read back. -/
theorem C18_newline_in_name (rnd : ℚ → ℚ) (lf : Bool) :
    Off.read rnd lf (Off.write (Mesh.make ['a', '\n', 'b'] [] [])) = .thrown .failure := by
  have : Off.parseLines (readlines (Off.write (Mesh.make ['a', '\n', 'b'] [] []))) =
      .ok [['b'], ['O', 'F', 'F'], ['0', ' ', '0', ' ', '0']] := by decide
  unfold Off.read
  rw [this]
  rfl

/-- A mesh meeting the hypotheses of C18: a triangle with a non integer coordinate. -/
def sampleOff : Mesh := Mesh.make ['r', 'o', 'o', 'f'] [⟨0, 0, 1 / 2⟩, ⟨1, 0, 1 / 2⟩, ⟨0, 1, -3⟩] [⟨[0, 1, 2]⟩]

example : Holdable sampleOff ∧ '\n' ∉ sampleOff.name ∧ FewDigitsMesh sampleOff ∧ Valid sampleOff := by
  have f0 : FewDigits 0 := ⟨0, 0, by norm_num, by simp⟩
  have f1 : FewDigits 1 := ⟨1, 0, by norm_num, by simp⟩
  have f2 : FewDigits (1 / 2) := ⟨5, -1, by norm_num, by rw [abs_of_pos (by norm_num)]; norm_num⟩
  have f3 : FewDigits (-3) := ⟨3, 0, by norm_num, by norm_num⟩
  refine ⟨⟨?_, by decide, by decide, by decide⟩, by decide, ?_, by decide⟩
  · intro p hp
    simp only [sampleOff, Mesh.make, List.mem_cons, List.not_mem_nil, or_false] at hp
    rcases hp with rfl | rfl | rfl <;> simp [FinitePoint, dblMax] <;> norm_num
  · intro p hp
    simp only [sampleOff, Mesh.make, List.mem_cons, List.not_mem_nil, or_false] at hp
    rcases hp with rfl | rfl | rfl <;> simp [f0, f1, f3] <;> simpa using f2

/-! ### C19 -/

theorem parseLines_eq (ls : List Text) : Off.parseLines ls =
    if [] ∈ ls then .thrown .outOfRange else .ok (ls.filter fun l => !isCommentLine l) := by
  induction ls with
  | nil => rfl
  | cons l ls ih =>
    rw [Off.parseLines]
    cases l with
    | nil => simp [Off.isComment]
    | cons c t =>
      rw [Off.isComment, Out.ok_bind, ih]
      by_cases h : [] ∈ ls
      · simp [h]
      · by_cases hc : c = '#' <;> simp [h, hc, isCommentLine, List.filter_cons]

/-- C19 (full statement, false of the code): reading any text has a defined outcome. -/
def C19_full : Prop := ∀ (rnd : ℚ → ℚ) (lf : Bool) (t : Text), Off.read rnd lf t ≠ .ub

/-- C19 refuted: a point line with two numbers, a size line with four integers, or a face line with more indexes than
declared: all three are undefined behaviour. -/
theorem C19_refuted : ¬ C19_full := by
  intro h
  apply h id true ("OFF\n0 0 0 0\n".toList)
  have e : Off.parseLines (readlines "OFF\n0 0 0 0\n".toList) = .ok [['O', 'F', 'F'], ['0', ' ', '0', ' ', '0', ' ', '0']] := by
    decide
  have e2 : scanNats ['0', ' ', '0', ' ', '0', ' ', '0'] = [0, 0, 0, 0] := by
    have z : ∀ r, Stop r → scanNats ('0' :: r) = 0 :: scanNats r := fun r hr =>
      scanNats_natText (n := 0) (by decide) hr
    have sp : ∀ r, Stop (' ' :: r) := fun r => stop_space (by decide)
    simp only [z _ (sp _), z _ stop_nil, scanNats_space (show isSpace ' ' = true by decide), scanNats_nil]
  unfold Off.read
  rw [e, Out.ok_bind]
  simp only
  rw [if_neg (by simp)]
  unfold Off.readHeader
  rw [e2]
  rfl

/-- C19: a text that contains what it declares (see `Declared`; nothing is required of texts without size line) is
either read or refused by an exception.
Missing from the full property: the texts that are not `Declared`, on which the code may have undefined behaviour. -/
theorem C19_defined_partial (rnd : ℚ → ℚ) (lf : Bool) (t : Text) (h : Declared rnd t) : Off.read rnd lf t ≠ .ub := by
  unfold Off.read
  rw [parseLines_eq]
  by_cases he : [] ∈ readlines t
  · rw [if_pos he]; simp
  rw [if_neg he, Out.ok_bind]
  have hc : (readlines t).filter (fun l => !isCommentLine l) = contentLines t := rfl
  rw [hc]
  match hl : contentLines t with
  | [] => simp
  | [l0] => simp only; split <;> simp
  | l0 :: l1 :: rest =>
    simp only
    split
    · simp
    obtain ⟨h3, hs0, hs1, hpts, hfcs⟩ := h l0 l1 rest hl
    unfold Off.readHeader
    simp only
    rw [if_neg (by omega)]
    by_cases h2 : (scanNats l1).getD 2 0 ≠ 0
    · rw [if_pos h2]; simp
    rw [if_neg h2]
    set s0 := (scanNats l1).getD 0 0
    set s1 := (scanNats l1).getD 1 0
    have hsz : szMod = 2 ^ 64 := rfl
    rw [Nat.mod_eq_of_lt (by omega)]
    by_cases hlen : (l0 :: l1 :: rest).length ≠ 2 + s0 + s1
    · rw [if_pos hlen]; simp
    rw [if_neg hlen, Out.ok_bind]
    simp only
    rw [not_not] at hlen
    simp only [List.length_cons] at hlen
    intro hub
    rcases Out.bind_eq_ub.1 hub with hub | ⟨r, -, hub⟩
    · rcases Out.both_ub hub with hub | hub
      · unfold Off.readPoints Off.slice at hub
        rw [if_neg (by omega), if_pos (by simp only [List.length_cons]; omega), Out.ok_bind] at hub
        refine mapM_ne_ub ?_ hub
        intro l hl
        simp only [List.drop_succ_cons, List.drop_zero] at hl
        have := hpts l hl
        unfold Off.parsePoint
        match hd : scanDecs rnd l with
        | [] => rw [hd] at this; simp at this
        | [_] => rw [hd] at this; simp at this
        | [_, _] => rw [hd] at this; simp at this
        | _ :: _ :: _ :: _ => simp
      · unfold Off.readFaces Off.slice at hub
        rw [Nat.mod_eq_of_lt (by omega), if_neg (by omega), if_pos (by simp only [List.length_cons]; omega), Out.ok_bind] at hub
        refine mapM_ne_ub ?_ hub
        intro l hl
        have hl' : l ∈ rest.drop s0 := by
          have := List.mem_of_mem_take hl
          rw [Nat.add_comm, ← List.drop_drop] at this
          rw [List.drop_drop, Nat.add_comm, ← List.drop_drop] at this
          simpa using this
        have := hfcs l hl'
        unfold Off.parseFace
        cases hs : scanNat l with
        | got n r =>
          rw [scanNats_got hs] at this
          simp only [List.length_cons, List.getD_cons_zero] at this
          simp only
          unfold Off.fillIndexes Face.mk?
          split
          · simp
          · rw [if_neg (by omega)]; split <;> simp
        | fail o =>
          simp only
          unfold Off.fillIndexes Face.mk?
          split
          · simp
          · rw [if_neg (by simp)]; split <;> simp
    · cases hub

/-- The hypothesis of `C19_defined_partial` is met by every written file. -/
theorem C19_written_declared (rnd : ℚ → ℚ) (m : Mesh) (h : Holdable m) (hn : '\n' ∉ m.name) :
    Declared rnd (Off.write m) := by
  have hc : contentLines (Off.write m) = Off.bodyLines m := by
    have := Off.parse_write hn
    rw [parseLines_eq] at this
    split at this
    · cases this
    · injection this
  have hsz : szMod = 2 ^ 64 := rfl
  obtain ⟨hp, hf, hd⟩ := h.small
  intro l0 l1 rest he
  rw [hc] at he
  unfold Off.bodyLines at he
  injection he with _ he
  injection he with he1 he2
  rw [← he1, ← he2, Off.scan_header (by omega) (by omega)]
  refine ⟨by simp, by simpa using hp, by simpa using hf, ?_, ?_⟩
  · intro l hl
    simp only [List.getD_cons_zero] at hl
    rw [List.take_left' (by simp), List.mem_map] at hl
    obtain ⟨p, hpm, rfl⟩ := hl
    have := Off.scanDecs_pointText rnd (h.finite p hpm) stop_nil
    rw [List.append_nil] at this
    rw [this]; simp
  · intro l hl
    simp only [List.getD_cons_zero] at hl
    rw [List.drop_left' (by simp), List.mem_map] at hl
    obtain ⟨f, hfm, rfl⟩ := hl
    have h60 : f.points.length < 2 ^ 60 := hd f hfm
    unfold Off.faceText
    rw [scanNats_natText (by omega) (stop_space (by decide)), scanNats_space (by decide), Off.sepText_scan (h.index f hfm)]
    simp

/-! ### C20 -/

/-- C20 (full statement, false of the code): removing comment lines and blank lines does not change what is read. -/
def C20_full : Prop := ∀ (rnd : ℚ → ℚ) (lf : Bool) (a b : List Text) (c : Text), (∀ l ∈ a ++ c :: b, '\n' ∉ l) →
  c = [] ∨ isCommentLine c = true → Off.read rnd lf (unlines (a ++ c :: b)) = Off.read rnd lf (unlines (a ++ b))

/-- C20: what is read depends only on the lines that are not comments: comment lines can be inserted or removed
anywhere. Missing from the full property: blank lines, which make reading throw (`C20_blank`). -/
theorem C20_comments_partial (rnd : ℚ → ℚ) (lf : Bool) (t t' : Text) (h : contentLines t = contentLines t') :
    Off.read rnd lf t = Off.read rnd lf t' := by
  have key : ∀ t : Text, ([] ∈ readlines t ↔ [] ∈ contentLines t) := by
    intro t; simp [contentLines, isCommentLine]
  unfold Off.read
  rw [parseLines_eq, parseLines_eq]
  change ((if [] ∈ readlines t then _ else Out.ok (contentLines t)) >>= _) =
    ((if [] ∈ readlines t' then _ else Out.ok (contentLines t')) >>= _)
  simp only [key, h]

/-- C20: in particular any comment line can be inserted between any two lines. -/
theorem C20_insert_comment (rnd : ℚ → ℚ) (lf : Bool) (a b : List Text) (c : Text) (hn : ∀ l ∈ a ++ c :: b, '\n' ∉ l)
    (hc : isCommentLine c = true) : Off.read rnd lf (unlines (a ++ c :: b)) = Off.read rnd lf (unlines (a ++ b)) := by
  apply C20_comments_partial
  unfold contentLines
  rw [readlines_unlines hn, readlines_unlines fun l hl => hn l (by
    simp only [List.mem_append, List.mem_cons] at hl ⊢; tauto)]
  simp [hc]

/-- C20: every text with a blank line is refused with out_of_range. -/
theorem C20_blank (rnd : ℚ → ℚ) (lf : Bool) (t : Text) (h : [] ∈ readlines t) :
    Off.read rnd lf t = .thrown .outOfRange := by
  unfold Off.read
  rw [parseLines_eq, if_pos h]
  rfl

/-- C20 refuted: a blank line at the end of an otherwise readable text. -/
theorem C20_refuted : ¬ C20_full := by
  intro h
  have := h id true ["x".toList] [] [] (by decide) (Or.inl rfl)
  rw [C20_blank id true _ (by decide)] at this
  have e : Off.read id true (unlines (["x".toList] ++ [])) = .thrown .failure := by
    unfold Off.read
    rw [show Off.parseLines (readlines (unlines (["x".toList] ++ []))) = .ok [['x']] by decide]
    rfl
  rw [e] at this
  cases this

/-! ### C21 -/

/-- C21: an accepted text declares its sizes and contains exactly them: the content lines are `OFF`, the sizes, one
line per point whose three first numbers are the coordinates, and one line per face whose first integer is the
degree (at least 3), followed by indexes that are the first ones of the face (missing ones are 0). -/
theorem C21_content_partial (rnd : ℚ → ℚ) (lf : Bool) (t : Text) (m : Mesh) (h : Off.read rnd lf t = .ok m) :
    ∃ l1 pl fl, contentLines t = ['O', 'F', 'F'] :: l1 :: (pl ++ fl) ∧
      pl.length = (scanNats l1).getD 0 0 ∧ fl.length = (scanNats l1).getD 1 0 ∧ (scanNats l1).getD 2 0 = 0 ∧
      List.Forall₂ (fun l p => (scanDecs rnd l).take 3 = [p.x, p.y, p.z]) pl m.points ∧
      List.Forall₂ (fun l f => 3 ≤ f.degree ∧ ∃ ns, scanNats l = f.degree :: ns ∧
        f.points = ns ++ List.replicate (f.degree - ns.length) 0) fl m.faces := by
  unfold Off.read at h
  rw [parseLines_eq] at h
  by_cases he : [] ∈ readlines t
  · rw [if_pos he] at h; cases h
  rw [if_neg he, Out.ok_bind] at h
  have hc : (readlines t).filter (fun l => !isCommentLine l) = contentLines t := rfl
  rw [hc] at h
  match hl : contentLines t with
  | [] => rw [hl] at h; cases h
  | [l0] => rw [hl] at h; simp only at h; split at h <;> cases h
  | l0 :: l1 :: rest =>
    rw [hl] at h
    simp only at h
    split at h
    · cases h
    rename_i hl0
    rw [not_not] at hl0
    obtain ⟨⟨s0, s1⟩, hh, h⟩ := Out.bind_eq_ok.1 h
    obtain ⟨⟨ps, fs⟩, hb, h⟩ := Out.bind_eq_ok.1 h
    cases h
    obtain ⟨hps, hfs⟩ := Out.both_ok.1 hb
    simp only at hps hfs
    unfold Off.readHeader at hh
    simp only at hh
    split at hh
    · cases hh
    split at hh
    · cases hh
    rename_i h3 h2
    split at hh
    · cases hh
    rename_i hlen
    rw [not_not] at hlen h2
    injection hh with hh
    injection hh with e0 e1
    rw [e0, e1] at hlen
    unfold Off.readPoints Off.slice at hps
    unfold Off.readFaces Off.slice at hfs
    have hsz : szMod = 2 ^ 64 := rfl
    by_cases b0 : 2 ^ 58 ≤ s0
    · rw [if_pos b0] at hps; cases hps
    by_cases b1 : 2 ^ 58 ≤ s1
    · rw [if_pos b1] at hfs; cases hfs
    rw [Nat.mod_eq_of_lt (by omega)] at hlen
    simp only [List.length_cons] at hlen
    rw [if_neg b0, if_pos (by simp only [List.length_cons]; omega), Out.ok_bind] at hps
    rw [if_neg b1, Nat.mod_eq_of_lt (by omega), if_pos (by simp only [List.length_cons]; omega), Out.ok_bind] at hfs
    have hd : (l0 :: l1 :: rest).drop (2 + s0) = rest.drop s0 := by
      rw [← List.drop_drop]; rfl
    rw [hd, List.take_of_length_le (by rw [List.length_drop]; omega)] at hfs
    simp only [List.drop_succ_cons, List.drop_zero] at hps
    refine ⟨l1, rest.take s0, rest.drop s0, ?_, ?_, ?_, h2, ?_, ?_⟩
    · rw [List.take_append_drop, hl0]
    · rw [List.length_take, e0]; omega
    · rw [List.length_drop, e1]; omega
    · rw [Out.mapM_eq_ok] at hps
      refine hps.imp ?_
      intro l p hp
      unfold Off.parsePoint at hp
      split at hp
      · rename_i hd; cases hp; rw [hd]; rfl
      · cases hp
    · rw [Out.mapM_eq_ok] at hfs
      refine hfs.imp ?_
      intro l f hf
      unfold Off.parseFace at hf
      cases hs : scanNat l with
      | got n r =>
        rw [hs] at hf
        simp only [Off.fillIndexes, Face.mk?] at hf
        split at hf
        · cases hf
        split at hf
        · cases hf
        split at hf
        · cases hf
        · rename_i h60 hle h3
          cases hf
          have : Face.degree ⟨scanNats r ++ List.replicate (n - (scanNats r).length) 0⟩ = n := by
            simp [Face.degree]; omega
          rw [this]
          refine ⟨?_, scanNats r, scanNats_got hs, rfl⟩
          simp at h3; omega
      | fail o =>
        rw [hs] at hf
        have ho : o = none ∨ o = some 0 ∨ o = some (szMod - 1) := by
          unfold scanNat at hs
          simp only at hs
          split at hs
          · cases hs; simp
          split at hs
          · cases hs; simp
          split at hs
          · cases hs; simp
          · cases hs
        simp only [Off.fillIndexes, Face.mk?] at hf
        rcases ho with rfl | rfl | rfl
        · simp at hf
        · simp at hf
        · rw [if_pos (by decide)] at hf; cases hf

/-- C21 (full statement, false of the code): moreover every face index of an accepted text refers to a point. -/
def C21_full : Prop := ∀ (rnd : ℚ → ℚ) (lf : Bool) (t : Text) (m : Mesh), Off.read rnd lf t = .ok m → Valid m

/-- C21 refuted: faces of a mesh without points are accepted: write the mesh with one triangle and no point and read
it back. -/
theorem C21_refuted : ¬ C21_full := by
  intro h
  have := read_write id true (Mesh.make [] [] [⟨[0, 1, 2]⟩]) ⟨by simp [Mesh.make], by decide, by decide, by decide⟩ (by decide)
  have hv := h id true _ _ this
  revert hv
  decide

end City.Props
