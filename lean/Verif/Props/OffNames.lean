import Verif.Props.MeshPrint
/-!
Properties C18 and C93 for every name, also with line breaks: the name of a mesh is written as a comment, but its line
breaks are written as they are (off_stream.h:134).
-/
set_option exponentiation.threshold 2000
namespace City.Spec
open City

/-- Each line break in the name is followed by a sharp: the name is a comment throughout. -/
def CommentName (n : Text) : Prop := ∀ a b : Text, n = a ++ '\n' :: b → b.head? = some '#'

end City.Spec

namespace City.Props
open City Spec

/-- Lines that are parsed, in two parts. -/
theorem parseLines_cat (a b : List Text) : Off.parseLines (a ++ b) =
    ((Off.parseLines a).bind fun x => (Off.parseLines b).bind fun y => .ok (x ++ y)) := by
  induction a with
  | nil =>
    show Off.parseLines b = (Off.parseLines b).bind fun y => .ok y
    cases Off.parseLines b <;> rfl
  | cons l a ih =>
    rw [List.cons_append, Off.parseLines, Off.parseLines, ih]
    rcases Off.isComment l with c | e | _
    · show (((Off.parseLines a).bind _).bind _) = (((Off.parseLines a).bind _).bind _)
      rcases Off.parseLines a with x | e | _
      · rcases Off.parseLines b with y | e | _
        · show Out.ok _ = Out.ok _
          cases c <;> rfl
        · rfl
        · rfl
      · rfl
      · rfl
    · rfl
    · rfl

/-- A line alone is left out if and only if it begins with a sharp. -/
theorem parse_one (l : Text) : Off.parseLines [l] = .ok [] ↔ l.head? = some '#' := by
  cases l with
  | nil => constructor <;> intro h <;> cases h
  | cons c l =>
    show (Out.ok (if (c == '#') = true then [] else [c :: l])) = Out.ok [] ↔ _
    by_cases h : c = '#'
    · subst h; simp
    · rw [if_neg (by simpa using h)]
      simp [h]

/-- The first line break of a text. -/
theorem first_break {t : Text} (h : '\n' ∈ t) : ∃ x y, t = x ++ '\n' :: y ∧ '\n' ∉ x := by
  induction t with
  | nil => cases h
  | cons c t ih =>
    by_cases hc : c = '\n'
    · exact ⟨[], t, by rw [hc]; rfl, by simp⟩
    · obtain ⟨x, y, h1, h2⟩ := ih (by
        rcases List.mem_cons.1 h with h | h
        · exact absurd h.symm hc
        · exact h)
      refine ⟨c :: x, y, by rw [h1]; rfl, ?_⟩
      intro hm
      rcases List.mem_cons.1 hm with h | h
      · exact hc h.symm
      · exact h2 h

/-- A text is left out if and only if each of its lines begins with a sharp. -/
theorem parse_comment (n : Nat) : ∀ t : Text, t.length ≤ n →
    (Off.parseLines (readlines (t ++ ['\n'])) = .ok [] ↔ t.head? = some '#' ∧ CommentName t) := by
  induction n with
  | zero =>
    intro t ht
    have : t = [] := List.length_eq_zero_iff.1 (by omega)
    subst this
    constructor
    · intro h; cases h
    · rintro ⟨h, -⟩; cases h
  | succ n ih =>
    intro t ht
    by_cases hn : '\n' ∈ t
    · obtain ⟨x, y, hxy, hx⟩ : ∃ x y, t = x ++ '\n' :: y ∧ '\n' ∉ x := by
        obtain ⟨x, y, h1, h2⟩ := first_break hn
        exact ⟨x, y, h1, h2⟩
      subst hxy
      have hy : y.length ≤ n := by simp at ht; omega
      rw [List.append_assoc, List.cons_append, readlines_line hx, ← List.singleton_append, parseLines_cat]
      have key : ((Off.parseLines [x]).bind fun u => (Off.parseLines (readlines (y ++ ['\n']))).bind fun v => Out.ok (u ++ v)) = Out.ok [] ↔
          Off.parseLines [x] = .ok [] ∧ Off.parseLines (readlines (y ++ ['\n'])) = .ok [] := by
        rcases Off.parseLines [x] with u | e | _
        · rcases Off.parseLines (readlines (y ++ ['\n'])) with v | e | _
          · show Out.ok (u ++ v) = Out.ok [] ↔ _
            constructor
            · intro h
              obtain ⟨rfl, rfl⟩ := List.append_eq_nil_iff.1 (Out.ok.inj h)
              exact ⟨rfl, rfl⟩
            · rintro ⟨h1, h2⟩
              rw [Out.ok.inj h1, Out.ok.inj h2]
              rfl
          · exact ⟨(fun h => by cases h), (fun h => by cases h.2)⟩
          · exact ⟨(fun h => by cases h), (fun h => by cases h.2)⟩
        · exact ⟨(fun h => by cases h), (fun h => by cases h.1)⟩
        · exact ⟨(fun h => by cases h), (fun h => by cases h.1)⟩
      rw [key, parse_one, ih y hy]
      constructor
      · rintro ⟨h1, h2, h3⟩
        refine ⟨?_, ?_⟩
        · cases x with
          | nil => cases h1
          | cons c x => exact h1
        · intro a b hab
          rcases List.append_eq_append_iff.1 hab with ⟨w, hw1, hw2⟩ | ⟨w, hw1, hw2⟩
          · cases w with
            | nil =>
              have := (List.cons.inj hw2).2
              rw [← this]; exact h2
            | cons c w =>
              obtain ⟨-, h⟩ := List.cons.inj hw2
              exact h3 w b h
          · cases w with
            | nil =>
              have := (List.cons.inj hw2).2
              rw [this]; exact h2
            | cons c w =>
              obtain ⟨hc, h⟩ := List.cons.inj hw2
              exact absurd (by rw [hw1, ← hc]; simp) hx
      · rintro ⟨h1, h2⟩
        refine ⟨?_, h2 x y rfl, fun a b h => h2 (x ++ '\n' :: a) b (by rw [h]; simp)⟩
        cases x with
        | nil => exact absurd h1 (by simp)
        | cons c x => exact h1
    · rw [readlines_line hn, show readlines [] = ([] : List Text) from rfl, parse_one]
      refine ⟨fun h => ⟨h, fun a b e => absurd (by rw [e]; simp) hn⟩, fun h => h.1⟩

/-- The lines of a written mesh: those of the name, then those of the mesh. -/
theorem parse_named (m : Mesh) : Off.parseLines (readlines (Off.write m)) =
    ((Off.parseLines (readlines ((['#', ' ', 'M', 'e', 's', 'h', ':', ' '] ++ m.name) ++ ['\n']))).bind fun x => .ok (x ++ Off.bodyLines m)) := by
  have hbody : ∀ l ∈ Off.bodyLines m, '\n' ∉ l ∧ Off.isComment l = .ok false := by
    intro l hl
    simp only [Off.bodyLines, List.mem_cons, List.mem_append, List.mem_map] at hl
    rcases hl with rfl | rfl | ⟨p, -, rfl⟩ | ⟨f, -, rfl⟩
    · decide
    · exact Off.numLine_ok (Off.numLine_sizes _ _)
    · exact Off.numLine_ok (Off.numLine_point p)
    · exact Off.numLine_ok (Off.numLine_face f)
  have e : Off.write m = (['#', ' ', 'M', 'e', 's', 'h', ':', ' '] ++ m.name) ++ '\n' :: unlines (Off.bodyLines m) := by
    simp [Off.write, unlines, Off.headerLines, Off.bodyLines]
  rw [e, readlines_break, parseLines_cat, readlines_unlines fun l hl => (hbody l hl).1,
    Off.parseLines_keep fun l hl => (hbody l hl).2]
  rfl

/-- The name is a comment if and only if nothing of it is left. -/
theorem named_comment (n : Text) : Off.parseLines (readlines ((['#', ' ', 'M', 'e', 's', 'h', ':', ' '] ++ n) ++ ['\n'])) = .ok [] ↔
    CommentName n := by
  rw [parse_comment _ _ le_rfl]
  constructor
  · rintro ⟨-, h⟩ a b e
    exact h (['#', ' ', 'M', 'e', 's', 'h', ':', ' '] ++ a) b (by rw [e]; simp)
  · intro h
    refine ⟨rfl, fun a b e => ?_⟩
    have key : ∀ (p a : Text), '\n' ∉ p → p ++ n = a ++ '\n' :: b → ∃ a', n = a' ++ '\n' :: b := by
      intro p
      induction p with
      | nil => exact fun a _ h => ⟨a, h⟩
      | cons c p ih =>
        intro a hp h
        cases a with
        | nil =>
          have := (List.cons.inj h).1
          exact absurd (by simp [this]) hp
        | cons d a => exact ih a (fun h => hp (by simp [h])) (List.cons.inj h).2
    obtain ⟨a', ha⟩ := key _ a (by decide) e
    exact h a' b ha

/-- The mesh without its name. -/
def unnamed (m : Mesh) : Mesh := { m with name := [] }

/-- Reading depends on the content only. -/
theorem read_of_content (rnd : ℚ → ℚ) (lf : Bool) {t u : Text} (h : Off.parseLines (readlines t) = Off.parseLines (readlines u)) :
    Off.read rnd lf t = Off.read rnd lf u := by
  unfold Off.read
  rw [h]

/-- A mesh that was read has as many points and faces as its header says, and the lines count them. -/
theorem read_counts {rnd : ℚ → ℚ} {lf : Bool} {t : Text} {ls : List Text} {r : Mesh} (hl : Off.parseLines (readlines t) = .ok ls)
    (h : Off.read rnd lf t = .ok r) : ls.length = (2 + r.points.length + r.faces.length) % szMod := by
  unfold Off.read at h
  rw [hl, Out.ok_bind] at h
  rcases ls with _ | ⟨l0, ls⟩
  · cases h
  · dsimp only at h
    split at h
    · cases h
    · rcases ls with _ | ⟨l1, ls⟩
      · cases h
      · dsimp only at h
        obtain ⟨s, h1, h2⟩ := Out.bind_eq_ok.1 h
        obtain ⟨q, h3, h4⟩ := Out.bind_eq_ok.1 h2
        have h5 := Out.both_ok.1 h3
        have hp : q.1.length = s.1 := by
          obtain ⟨b, hb, hm⟩ := Out.bind_eq_ok.1 h5.1
          rw [Out.mapM_length hm]
          unfold Off.slice at hb
          split at hb
          · cases hb
          · split at hb
            · rename_i hle
              rw [← Out.ok.inj hb, List.length_take, List.length_drop]
              omega
            · cases hb
        have hf : q.2.length = s.2 := by
          obtain ⟨b, hb, hm⟩ := Out.bind_eq_ok.1 h5.2
          rw [Out.mapM_length hm]
          unfold Off.slice at hb
          split at hb
          · cases hb
          · split at hb
            · rename_i hle
              rw [← Out.ok.inj hb, List.length_take, List.length_drop]
              omega
            · cases hb
        have hr := Out.ok.inj h4
        subst hr
        show _ = (2 + q.1.length + q.2.length) % szMod
        rw [hp, hf]
        unfold Off.readHeader at h1
        dsimp only at h1
        split at h1
        · cases h1
        · split at h1
          · cases h1
          · split at h1
            · cases h1
            · rename_i hlen
              have := Out.ok.inj h1
              rw [← this]
              exact not_not.1 hlen

/-- Each element has its partner. -/
theorem each_ok {α β : Type} {R : α → β → Prop} {l : List α} {l' : List β} (h : List.Forall₂ R l l') {a : α} (ha : a ∈ l) : ∃ b, R a b := by
  induction h with
  | nil => cases ha
  | cons h _ ih =>
    rcases List.mem_cons.1 ha with rfl | ha
    · exact ⟨_, h⟩
    · exact ih ha

/-- The line `OFF` is neither a point nor a face. -/
theorem off_line (rnd : ℚ → ℚ) : (∀ p, Off.parsePoint rnd ['O', 'F', 'F'] ≠ .ok p) ∧ ∀ f, Off.parseFace ['O', 'F', 'F'] ≠ .ok f := by
  constructor
  · intro p h
    unfold Off.parsePoint at h
    rw [scanDecs_fail rnd (by rfl : scanDec ['O', 'F', 'F'] = none)] at h
    cases h
  · intro f h
    cases h

/-- A line `OFF` after the first makes the text unreadable. -/
theorem off_again {rnd : ℚ → ℚ} {lf : Bool} {t : Text} {x y : List Text} {r : Mesh} (hx : x ≠ []) (hy : y ≠ [])
    (hl : Off.parseLines (readlines t) = .ok (x ++ ['O', 'F', 'F'] :: y)) : Off.read rnd lf t ≠ .ok r := by
  intro h
  have hc := read_counts hl h
  unfold Off.read at h
  rw [hl, Out.ok_bind] at h
  rcases x with _ | ⟨l0, x⟩
  · exact hx rfl
  · dsimp only [List.cons_append] at h
    split at h
    · cases h
    · rcases x with _ | ⟨l1, x⟩
      · dsimp only [List.nil_append] at h
        obtain ⟨s, h1, -⟩ := Out.bind_eq_ok.1 h
        unfold Off.readHeader at h1
        rw [scanNats_fail (by rfl : scanNat ['O', 'F', 'F'] = .fail (some 0))] at h1
        replace h1 : (if 3 < ([] : List Nat).length then Out.ub else if ([] : List Nat).getD 2 0 ≠ 0 then Out.thrown Exc.rangeError
          else if (l0 :: ['O', 'F', 'F'] :: y).length ≠ (2 + ([] : List Nat).getD 0 0 + ([] : List Nat).getD 1 0) % szMod then Out.thrown Exc.rangeError
          else Out.ok (([] : List Nat).getD 0 0, ([] : List Nat).getD 1 0)) = Out.ok s := h1
        split at h1
        · cases h1
        split at h1
        · cases h1
        split at h1
        · cases h1
        · rename_i hn
          cases y with
          | nil => exact absurd rfl hy
          | cons a y =>
            have : (l0 :: ['O', 'F', 'F'] :: a :: y).length = 2 := not_not.1 hn
            simp at this
      · dsimp only [List.cons_append] at h
        obtain ⟨s, h1, h2⟩ := Out.bind_eq_ok.1 h
        obtain ⟨q, h3, h4⟩ := Out.bind_eq_ok.1 h2
        obtain ⟨h5, h6⟩ := Out.both_ok.1 h3
        obtain ⟨b, hb, hm⟩ := Out.bind_eq_ok.1 h5
        obtain ⟨b', hb', hm'⟩ := Out.bind_eq_ok.1 h6
        have hr := Out.ok.inj h4
        subst hr
        replace hc : _ = (2 + q.1.length + q.2.length) % szMod := hc
        have hsz : szMod = 2 ^ 64 := rfl
        unfold Off.slice at hb hb'
        split at hb
        · cases hb
        split at hb'
        · cases hb'
        split at hb
        case isFalse => cases hb
        split at hb'
        case isFalse => cases hb'
        rename_i hs1 hs2 hle hle'
        have hb := Out.ok.inj hb
        have hb' := Out.ok.inj hb'
        have hp : q.1.length = s.1 := by
          rw [Out.mapM_length hm, ← hb, List.length_take, List.length_drop]
          omega
        have hf : q.2.length = s.2 := by
          rw [Out.mapM_length hm', ← hb', List.length_take, List.length_drop]
          omega
        rw [Nat.mod_eq_of_lt (a := 2 + s.1) (by omega)] at hb' hle'
        rw [hp, hf, Nat.mod_eq_of_lt (by omega)] at hc
        have hcat : b ++ b' = x ++ ['O', 'F', 'F'] :: y := by
          rw [← hb, ← hb']
          rw [show (2 + s.1) = s.1 + 2 from by omega]
          simp only [List.drop_succ_cons, List.drop_zero]
          rw [show (x ++ ['O', 'F', 'F'] :: y).drop s.1 = ((x ++ ['O', 'F', 'F'] :: y).drop s.1) from rfl,
            List.take_of_length_le (l := (x ++ ['O', 'F', 'F'] :: y).drop s.1)]
          · exact List.take_append_drop _ _
          · rw [List.length_drop]
            simp only [List.length_cons, List.cons_append] at hc
            omega
        have hmem : ['O', 'F', 'F'] ∈ b ++ b' := by rw [hcat]; simp
        rcases List.mem_append.1 hmem with hm1 | hm1
        · obtain ⟨p, hp⟩ := each_ok (Out.mapM_eq_ok.1 hm) hm1
          exact (off_line rnd).1 p hp
        · obtain ⟨p, hp⟩ := each_ok (Out.mapM_eq_ok.1 hm') hm1
          exact (off_line rnd).2 p hp

/-- C18, for every name: if each line break in the name is followed by a sharp, the written mesh is read back as
without a name; with any other line break no mesh at all is read. -/
theorem C18_names (rnd : ℚ → ℚ) (lf : Bool) (m : Mesh) (h : Holdable m) :
    (CommentName m.name → ∃ r, Off.read rnd lf (Off.write m) = .ok r ∧ r.faces = m.faces ∧ r.name = [] ∧ r.bbox = Mesh.computeBbox r.points ∧
      List.Forall₂ (fun p q : V3 ℚ => scanDecs rnd (dblText p.x) = [q.x] ∧ scanDecs rnd (dblText p.y) = [q.y] ∧
        scanDecs rnd (dblText p.z) = [q.z]) m.points r.points) ∧
    (¬ CommentName m.name → ∀ r, Off.read rnd lf (Off.write m) ≠ .ok r) := by
  constructor
  · intro hn
    have e1 := parse_named m
    rw [(named_comment _).2 hn] at e1
    have e2 : Off.parseLines (readlines (Off.write (unnamed m))) = .ok (Off.bodyLines m) := Off.parse_write (by simp [unnamed])
    rw [read_of_content rnd lf (e1.trans e2.symm)]
    exact C18_round_trip rnd lf (unnamed m) ⟨h.finite, h.degree, h.small, h.index⟩ (by simp [unnamed])
  · intro hn r hr
    rw [← named_comment] at hn
    have hl := parse_named m
    rcases e : Off.parseLines (readlines ((['#', ' ', 'M', 'e', 's', 'h', ':', ' '] ++ m.name) ++ ['\n'])) with x | ex | _
    · rw [e] at hl hn
      refine off_again (x := x) (fun h0 => hn (by rw [h0])) ?_ hl hr
      simp
    · rw [e] at hl
      unfold Off.read at hr
      rw [hl] at hr
      cases hr
    · rw [e] at hl
      unfold Off.read at hr
      rw [hl] at hr
      cases hr

/-- C18: a name can be such that reading the written file is undefined behaviour: the file claims points that it does
not have. -/
theorem C18_name_undefined (rnd : ℚ → ℚ) (lf : Bool) :
    Off.read rnd lf (Off.write (Mesh.make "a\nOFF\n2 0 0".toList [] [])) = .ub := by
  have : Off.parseLines (readlines (Off.write (Mesh.make "a\nOFF\n2 0 0".toList [] []))) =
      .ok [['O', 'F', 'F'], ['2', ' ', '0', ' ', '0'], ['O', 'F', 'F'], ['0', ' ', '0', ' ', '0']] := by decide
  have e : scanNats ['2', ' ', '0', ' ', '0'] = [2, 0, 0] := by
    have z : ∀ r, Stop r → scanNats ('0' :: r) = 0 :: scanNats r := fun r hr => scanNats_natText (n := 0) (by decide) hr
    have z2 : ∀ r, Stop r → scanNats ('2' :: r) = 2 :: scanNats r := fun r hr => scanNats_natText (n := 2) (by decide) hr
    have sp : ∀ r, Stop (' ' :: r) := fun r => stop_space (by decide)
    simp only [z2 _ (sp _), z _ (sp _), z _ stop_nil, scanNats_space (show isSpace ' ' = true by decide), scanNats_nil]
  have hp : Off.parsePoint rnd ['O', 'F', 'F'] = .ub := by
    unfold Off.parsePoint
    rw [scanDecs_fail rnd (by rfl : scanDec ['O', 'F', 'F'] = none)]
  unfold Off.read
  rw [this, Out.ok_bind]
  dsimp only
  rw [if_neg (by simp)]
  unfold Off.readHeader
  rw [e]
  have hr : Off.readPoints rnd [['O', 'F', 'F'], ['2', ' ', '0', ' ', '0'], ['O', 'F', 'F'], ['0', ' ', '0', ' ', '0']] 2 = .ub := by
    show Out.mapM (Off.parsePoint rnd) [['O', 'F', 'F'], ['0', ' ', '0', ' ', '0']] = .ub
    rw [Out.mapM, hp]
    rfl
  show (Out.both lf (Off.readPoints rnd _ 2) (Out.ok [])).bind _ = Out.ub
  rw [hr]
  cases lf <;> rfl

example : CommentName "roof\n# of a church".toList := by
  have : ∀ n : Text, (∀ i, n[i]? = some '\n' → n[i + 1]? = some '#') → CommentName n := by
    rintro n h a b rfl
    have := h a.length (by simp)
    rw [List.getElem?_append_right (by omega)] at this
    simpa [List.head?_eq_getElem?] using this
  refine this _ fun i => ?_
  by_cases hi : i < 18
  · have : ∀ i < 18, "roof\n# of a church".toList[i]? = some '\n' → "roof\n# of a church".toList[i + 1]? = some '#' := by decide
    exact this i hi
  · rw [List.getElem?_eq_none (by simp; omega)]
    exact fun h => by cases h

example : ¬ CommentName "a\nb".toList := fun h => absurd (h ['a'] ['b'] rfl) (by decide)

/-- C93, for every name and any number of digits: what is printed is read back, each coordinate as it reads in its
printed form, if each line break of the name is followed by a sharp; with any other line break no mesh is read. -/
theorem C93_names (rnd : ℚ → ℚ) (lf neg : Bool) (m : Mesh) (h : Holdable m) :
    (CommentName m.name → ∃ r, Off.read rnd lf (m.print neg) = .ok r ∧ r.faces = m.faces ∧ r.name = [] ∧ r.bbox = Mesh.computeBbox r.points ∧
      List.Forall₂ (fun p q : V3 ℚ => scanDecs rnd (dblText p.x) = [q.x] ∧ scanDecs rnd (dblText p.y) = [q.y] ∧
        scanDecs rnd (dblText p.z) = [q.z]) m.points r.points) ∧
    (¬ CommentName m.name → ∀ r, Off.read rnd lf (m.print neg) ≠ .ok r) := by
  rw [C93_reads_as_off]
  exact C18_names rnd lf m h

end City.Props
