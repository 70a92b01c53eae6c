import Verif.Props.MeshBox
import Verif.Model.MeshPrint
import Verif.Props.Off
/-!
Property C93: what `os << mesh` prints can be read as OFF, and tells the meshes apart.
-/
set_option exponentiation.threshold 2000
namespace City.Props
open City Spec

theorem readlines_head (t : Text) : ∃ a ls, ∀ p : Text, '\n' ∉ p → p ≠ [] → readlines (p ++ t) = (p ++ a) :: ls := by
  refine ⟨(readlines t).headD [], (readlines t).tail, fun p => ?_⟩
  induction p with
  | nil => exact fun _ h => absurd rfl h
  | cons c p ih =>
    intro hp _
    have hc : c ≠ '\n' := fun e => hp (by simp [e])
    rw [List.cons_append, readlines, if_neg hc]
    by_cases h0 : p = []
    · subst h0
      rw [List.nil_append]
      cases readlines t <;> rfl
    · rw [ih (fun h => hp (by simp [h])) h0]
      rfl

/-- Texts that differ in the beginning of a comment at their beginning have the same content. -/
theorem content_head {p q : Text} (hp : '\n' ∉ p) (hq : '\n' ∉ q) (hp' : isCommentLine p = true) (hq' : isCommentLine q = true) (t : Text) :
    contentLines (p ++ t) = contentLines (q ++ t) := by
  obtain ⟨a, ls, h⟩ := readlines_head t
  have p0 : p ≠ [] := by rintro rfl; cases hp'
  have q0 : q ≠ [] := by rintro rfl; cases hq'
  have comment_append : ∀ p : Text, p ≠ [] → isCommentLine (p ++ a) = isCommentLine p := by
    intro p h0
    cases p with
    | nil => exact absurd rfl h0
    | cons c p => rfl
  unfold contentLines
  rw [h p hp p0, h q hq q0, List.filter_cons, List.filter_cons, comment_append p p0, comment_append q q0, hp', hq']
  rfl

/-- The line breaks cut the text. -/
theorem readlines_break (x y : Text) : readlines (x ++ '\n' :: y) = readlines (x ++ ['\n']) ++ readlines y := by
  induction x with
  | nil => simp [readlines]
  | cons c x ih =>
    rw [List.cons_append, List.cons_append, readlines, readlines, ih]
    split
    · rfl
    · have : readlines (x ++ ['\n']) ≠ [] := by
        cases x with
        | nil => simp [readlines]
        | cons d x =>
          rw [List.cons_append, readlines]
          split
          · simp
          · split <;> simp
      cases h : readlines (x ++ ['\n']) with
      | nil => exact absurd h this
      | cons l ls => rfl

theorem content_break (x y : Text) : contentLines (x ++ '\n' :: y) = contentLines (x ++ ['\n']) ++ contentLines y := by
  unfold contentLines
  rw [readlines_break, List.filter_append]

theorem dblWord_noBreak (neg : Bool) (d : Dbl) : '\n' ∉ dblWord neg d := by
  cases d with
  | fin q =>
    intro h
    have := (Off.dblText_numChar q).1 _ h
    revert this
    decide
  | nan => cases neg <;> decide
  | pinf => simp [dblWord]
  | ninf => simp [dblWord]

theorem bboxText_noBreak (neg : Bool) (b : Bbox) : '\n' ∉ b.text neg := by
  simp only [Bbox.text, List.mem_append, List.mem_cons, not_or]
  exact ⟨dblWord_noBreak _ _, by decide, dblWord_noBreak _ _, by decide, dblWord_noBreak _ _, by decide, dblWord_noBreak _ _, by decide,
    dblWord_noBreak _ _, by decide, dblWord_noBreak _ _⟩

/-- C93: what `os << mesh` prints is read from a stream in OFF notation exactly as what the OFF handler writes: for every mesh, whatever its name, its box
and its sizes are. -/
theorem C93_reads_as_off (rnd : ℚ → ℚ) (lf : Bool) (neg : Bool) (m : Mesh) :
    Off.read rnd lf (m.print neg) = Off.read rnd lf (Off.write m) := by
  apply C20_comments_partial
  set body := ([['O', 'F', 'F'], natText m.points.length ++ ' ' :: (natText m.faces.length ++ [' ', '0'])] ++ m.points.map Off.pointText ++
        m.faces.map Off.faceText).flatMap (· ++ ['\n']) with hbody
  have hw : Off.write m = ['#', ' ', 'M', 'e', 's', 'h', ':', ' '] ++ m.name ++ '\n' :: body := by
    simp [Off.write, Off.headerLines, hbody]
  rw [hw]
  unfold Mesh.print
  rw [← hbody, content_break, content_break (['#', ' ', 'M', 'e', 's', 'h', ':', ' '] ++ m.name), content_break (_ ++ m.bbox.text neg),
    List.append_assoc, List.append_assoc,
    content_head (p := ['#', 'N', 'a', 'm', 'e', ':', ' ']) (q := ['#', ' ', 'M', 'e', 's', 'h', ':', ' ']) (by decide) (by decide) rfl rfl]
  have : contentLines (['#', 'B', 'o', 'u', 'n', 'd', 'i', 'n', 'g', ' ', 'b', 'o', 'x', ':', ' '] ++ m.bbox.text neg ++ ['\n']) = [] := by
    unfold contentLines
    rw [readlines_line (by
      simp only [List.mem_append, not_or]
      exact ⟨by decide, bboxText_noBreak neg m.bbox⟩)]
    rfl
  rw [List.append_assoc] at this
  rw [this, List.nil_append, List.append_assoc]

/-- C93: the printed mesh is read back with its points and faces when its coordinates have at most six significant digits. -/
theorem C93_round_trip_partial (rnd : ℚ → ℚ) (lf : Bool) (neg : Bool) (m : Mesh) (h : Holdable m) (hn : '\n' ∉ m.name) (hd : FewDigitsMesh m)
    (hr : ∀ p ∈ m.points, rnd p.x = p.x ∧ rnd p.y = p.y ∧ rnd p.z = p.z) :
    ∃ r, Off.read rnd lf (m.print neg) = .ok r ∧ r.points = m.points ∧ r.faces = m.faces := by
  rw [C93_reads_as_off]
  exact C18_exact rnd lf m h hn hd hr

theorem first_line {a b x y : Text} (ha : '\n' ∉ a) (hb : '\n' ∉ b) (h : a ++ '\n' :: x = b ++ '\n' :: y) : a = b ∧ x = y := by
  induction a generalizing b with
  | nil =>
    cases b with
    | nil => simpa using h
    | cons d b =>
      simp only [List.nil_append, List.cons_append, List.cons.injEq] at h
      exact absurd (by rw [h.1]; simp) hb
  | cons c a ih =>
    cases b with
    | nil =>
      simp only [List.nil_append, List.cons_append, List.cons.injEq] at h
      exact absurd (by rw [h.1]; simp) ha
    | cons d b =>
      simp only [List.cons_append, List.cons.injEq] at h
      obtain ⟨h1, h2⟩ := ih (fun e => ha (by simp [e])) (fun e => hb (by simp [e])) h.2
      exact ⟨by rw [h.1, h1], h2⟩

/-- C93: two meshes that print the same have the same name, the same faces and points that agree in their six leading digits. -/
theorem C93_tells_apart_partial (neg neg' : Bool) (m m' : Mesh) (h : Holdable m) (h' : Holdable m') (hn : '\n' ∉ m.name) (hn' : '\n' ∉ m'.name)
    (hp : m.print neg = m'.print neg') :
    m.name = m'.name ∧ m.faces = m'.faces ∧ m.points.map Off.pointText = m'.points.map Off.pointText ∧
      (FewDigitsMesh m → FewDigitsMesh m' → m.points = m'.points) := by
  have hname : m.name = m'.name := by
    unfold Mesh.print at hp
    have := (first_line (by simpa using hn) (by simpa using hn') hp).1
    simpa using this
  have hread : Off.read id true (m.print neg) = Off.read id true (m'.print neg') := by rw [hp]
  rw [C93_reads_as_off, C93_reads_as_off, read_write id true m h hn, read_write id true m' h' hn'] at hread
  have hf : m.faces = m'.faces := by
    have := congrArg (fun r : Out Mesh => match r with | .ok x => x.faces | _ => []) hread
    simpa [Mesh.makeAnon, Mesh.make] using this
  refine ⟨hname, hf, ?_, fun hd hd' => ?_⟩
  · unfold Mesh.print at hp
    have h1 := (first_line (by simpa using hn) (by simpa using hn') hp).2
    have h2 := (first_line (by simpa using bboxText_noBreak neg m.bbox) (by simpa using bboxText_noBreak neg' m'.bbox) h1).2
    have h3 := congrArg readlines h2
    have hb : ∀ m : Mesh, ∀ l ∈ [['O', 'F', 'F'], natText m.points.length ++ ' ' :: (natText m.faces.length ++ [' ', '0'])] ++ m.points.map Off.pointText ++
        m.faces.map Off.faceText, '\n' ∉ l := by
      intro m l hl
      simp only [List.mem_cons, List.mem_append, List.mem_map, List.not_mem_nil, or_false] at hl
      rcases hl with ((rfl | rfl) | ⟨p, -, rfl⟩) | ⟨f, -, rfl⟩
      · decide
      · exact (Off.numLine_ok (Off.numLine_sizes _ _)).1
      · exact (Off.numLine_ok (Off.numLine_point p)).1
      · exact (Off.numLine_ok (Off.numLine_face f)).1
    have e := readlines_unlines (hb m)
    have e' := readlines_unlines (hb m')
    unfold unlines at e e'
    rw [e, e', hf] at h3
    simp only [List.cons_append, List.nil_append, List.cons.injEq, true_and] at h3
    exact List.append_cancel_right h3.2
  · have e1 := C18_exact id true m h hn hd (fun p _ => ⟨rfl, rfl, rfl⟩)
    have e2 := C18_exact id true m' h' hn' hd' (fun p _ => ⟨rfl, rfl, rfl⟩)
    obtain ⟨r, a1, a2, -⟩ := e1
    obtain ⟨r', b1, b2, -⟩ := e2
    rw [read_write id true m h hn] at a1
    rw [read_write id true m' h' hn'] at b1
    rw [hread] at a1
    rw [b1] at a1
    cases a1
    rw [← a2, ← b2]

/-- A triangle whose name contains the mark of comments. -/
def boxed : Mesh := Mesh.make ['a', '#', 'b'] [⟨0, 0, 0⟩, ⟨1, 0, 0⟩, ⟨0, 5 / 2, 0⟩] [⟨[0, 1, 2]⟩]

/-- The printed text of a mesh without points has infinities in its box and is read all the same. -/
example : (Mesh.make ['e'] [] []).print false = "#Name: e\n#Bounding box: inf -inf inf -inf inf -inf\nOFF\n0 0 0\n".toList := by decide +kernel

/-- The hypotheses of C93 are met. -/
example : Holdable boxed ∧ '\n' ∉ boxed.name ∧ (∀ p ∈ boxed.points, id p.x = p.x ∧ id p.y = p.y ∧ id p.z = p.z) := by
  refine ⟨⟨?_, by decide, by decide, by decide⟩, by decide, fun _ _ => ⟨rfl, rfl, rfl⟩⟩
  intro p hp
  simp only [boxed, Mesh.make, List.mem_cons, List.not_mem_nil, or_false] at hp
  rcases hp with rfl | rfl | rfl <;> simp [FinitePoint, dblMax] <;> norm_num

/-- Words with a space between them. -/
def spaced : List Text → Text
  | [] => []
  | [w] => w
  | w :: ws => w ++ ' ' :: spaced ws

/-- C93: the second line that is printed states the extent of the points: the smallest and the largest x, then y, then z; for a mesh without points infinite bounds that
contain nothing. -/
theorem C93_box (neg : Bool) (name : Text) (ps : List (V3 ℚ)) (fs : List Face) (hn : '\n' ∉ name) :
    (ps = [] → (readlines ((Mesh.make name ps fs).print neg))[1]? = some "#Bounding box: inf -inf inf -inf inf -inf".toList) ∧
    (ps ≠ [] → ∃ a b c d e f : V3 ℚ, (a ∈ ps ∧ b ∈ ps ∧ c ∈ ps ∧ d ∈ ps ∧ e ∈ ps ∧ f ∈ ps) ∧
      (∀ p ∈ ps, a.x ≤ p.x ∧ p.x ≤ b.x ∧ c.y ≤ p.y ∧ p.y ≤ d.y ∧ e.z ≤ p.z ∧ p.z ≤ f.z) ∧
      (readlines ((Mesh.make name ps fs).print neg))[1]? =
        some ("#Bounding box: ".toList ++ spaced [dblText a.x, dblText b.x, dblText c.y, dblText d.y, dblText e.z, dblText f.z])) := by
  have hline : ∀ m : Mesh, '\n' ∉ m.name → (readlines (m.print neg))[1]? = some ("#Bounding box: ".toList ++ m.bbox.text neg) := by
    intro m hm
    unfold Mesh.print
    rw [List.append_assoc, ← List.append_assoc, readlines_line (by
      rw [List.mem_append, not_or]; exact ⟨by decide, hm⟩), List.append_assoc, ← List.append_assoc, readlines_line (by
      rw [List.mem_append, not_or]; exact ⟨by decide, bboxText_noBreak _ _⟩)]
    rfl
  constructor
  · rintro rfl
    rw [hline _ hn]
    rfl
  · intro hne
    obtain ⟨a, b, c, d, e, f, hb, hm, hin⟩ := C04_mesh name ps fs hne
    refine ⟨a, b, c, d, e, f, hm, hin, ?_⟩
    rw [hline _ hn, hb]
    rfl

/-- C93 (full statement, false of the code): a mesh that is printed and read is the same mesh. -/
def C93_full : Prop := ∀ (rnd : ℚ → ℚ) (lf neg : Bool) (m : Mesh), Holdable m → '\n' ∉ m.name → Valid m → Off.read rnd lf (m.print neg) = .ok m

/-- C93 refuted: the name is lost, although it is printed. -/
theorem C93_refuted : ¬ C93_full := by
  intro hC
  have h := hC id true false (Mesh.make ['e'] [] []) ⟨by simp [Mesh.make], by decide, by decide, by decide⟩ (by decide) (by decide)
  rw [C93_reads_as_off, read_write id true _ ⟨by simp [Mesh.make], by decide, by decide, by decide⟩ (by decide)] at h
  have := congrArg (fun r : Out Mesh => match r with | .ok x => x.name | _ => []) h
  simp [Mesh.makeAnon, Mesh.make] at this

end City.Props
