import Verif.Lemmas.Words
import Verif.Props.Off
import Verif.Props.Obj
/-!
C81: a text in OFF or OBJ notation is read as what it says.
-/
namespace City.Props
open City Spec

/-- A finite point in the decimal notation. -/
def DecFinite (p : V3 ℚ) : Prop := |p.x| < dblOverflow ∧ |p.y| < dblOverflow ∧ |p.z| < dblOverflow

/-- The coordinates converted to doubles. -/
def convert (rnd : ℚ → ℚ) (p : V3 ℚ) : V3 ℚ := ⟨rnd p.x, rnd p.y, rnd p.z⟩

theorem parsePoint_line {rnd : ℚ → ℚ} {l : Text} {p : V3 ℚ} (h : DecLine l [p.x, p.y, p.z]) (hf : DecFinite p) :
    Off.parsePoint rnd l = .ok (convert rnd p) := by
  obtain ⟨f1, f2, f3⟩ := hf
  unfold Off.parsePoint
  rw [scanDecs_line h (by
    intro q hq
    simp only [List.mem_cons, List.not_mem_nil, or_false] at hq
    rcases hq with rfl | rfl | rfl <;> assumption)]
  rfl

theorem parseFace_line {l : Text} {f : List ℕ} (h : NatLine l (f.length :: f)) (h3 : 3 ≤ f.length) (h60 : f.length < 2 ^ 60)
    (hi : ∀ i ∈ f, i < 2 ^ 64) : Off.parseFace l = .ok ⟨f⟩ := by
  obtain ⟨ws, hw, hf⟩ := h
  cases hw with
  | nil => cases hf
  | cons hb _ _ hs hr =>
    rw [List.forall₂_cons] at hf
    unfold Off.parseFace
    rw [scanNat_word hb hf.1 (by omega) (stop_of_white hs)]
    simp only
    rw [scanNats_line ⟨_, hr, hf.2⟩ hi]
    unfold Off.fillIndexes
    rw [if_neg (by omega), if_neg (by omega)]
    unfold Face.mk?
    simp only [Nat.sub_self, List.replicate_zero, List.append_nil]
    rw [if_neg (by omega)]

/-- C81 (OFF): whatever the blanks, the signs, the exponents and the comments, an OFF text gives the mesh it describes: the points in order,
converted to doubles, and the faces in order. -/
theorem C81_off_partial (rnd : ℚ → ℚ) (lf : Bool) (t : Text) (ps : List (V3 ℚ)) (fs : List (List ℕ)) (h : OffText t ps fs)
    (hp : ∀ p ∈ ps, DecFinite p) (h3 : ∀ f ∈ fs, 3 ≤ f.length) (hi : ∀ f ∈ fs, ∀ i ∈ f, i < 2 ^ 64)
    (hs : ps.length < 2 ^ 58 ∧ fs.length < 2 ^ 58 ∧ ∀ f ∈ fs, f.length < 2 ^ 60) :
    Off.read rnd lf t = .ok (Mesh.make [] (ps.map (convert rnd)) (fs.map fun f => ⟨f⟩)) := by
  obtain ⟨ls, l1, pl, fl, hl, hne, hc, hcount, hpl, hfl⟩ := h
  obtain ⟨s1, s2, s3⟩ := hs
  have hr := readlines_of_lines hl
  have hc' : contentLines t = ['O', 'F', 'F'] :: l1 :: (pl ++ fl) := by
    rw [← hc]
    unfold contentLines
    rw [hr]
    apply List.filter_congr
    intro l _
    simp [isCommentLine, Bool.beq_eq_decide_eq]
  unfold Off.read
  rw [parseLines_eq, if_neg (by rw [hr]; exact hne), Out.ok_bind]
  have e : (readlines t).filter (fun l => !isCommentLine l) = contentLines t := rfl
  rw [e, hc']
  simp only [ne_eq, not_true_eq_false, if_false]
  have hlp := hpl.length_eq
  have hlf := hfl.length_eq
  have hsz : szMod = 2 ^ 64 := rfl
  have hh : Off.readHeader (['O', 'F', 'F'] :: l1 :: (pl ++ fl)) l1 = .ok (ps.length, fs.length) := by
    unfold Off.readHeader
    rw [scanNats_line hcount (by
      intro n hn
      simp only [List.mem_cons, List.not_mem_nil, or_false] at hn
      rcases hn with rfl | rfl | rfl <;> omega)]
    simp only [List.length_cons, List.length_nil, List.getD_cons_zero, List.getD_cons_succ, List.length_append]
    rw [if_neg (by omega), if_neg (by simp), if_neg (by rw [hlp, hlf, Nat.mod_eq_of_lt (by omega)]; omega)]
  rw [hh, Out.ok_bind]
  have h1 : Off.readPoints rnd (['O', 'F', 'F'] :: l1 :: (pl ++ fl)) ps.length = .ok (ps.map (convert rnd)) := by
    unfold Off.readPoints Off.slice
    rw [if_neg (by omega), if_pos (by simp; omega), Out.ok_bind]
    rw [show (['O', 'F', 'F'] :: l1 :: (pl ++ fl)).drop 2 = pl ++ fl from rfl, ← hlp, List.take_left, Out.mapM_eq_ok,
      List.forall₂_map_right_iff]
    clear hh hcount hc hc' e hl hne hr hlp hlf s1 hfl
    induction hpl with
    | nil => exact .nil
    | cons h _ ih => exact .cons (parsePoint_line h (hp _ (by simp))) (ih fun p hp' => hp p (by simp [hp']))
  have h2 : Off.readFaces (['O', 'F', 'F'] :: l1 :: (pl ++ fl)) ((2 + ps.length) % szMod) fs.length = .ok (fs.map fun f => ⟨f⟩) := by
    unfold Off.readFaces Off.slice
    rw [Nat.mod_eq_of_lt (by omega), if_neg (by omega), if_pos (by simp; omega), Out.ok_bind]
    have : (['O', 'F', 'F'] :: l1 :: (pl ++ fl)).drop (2 + ps.length) = fl := by
      rw [show 2 + ps.length = pl.length + 2 by omega, List.drop_succ_cons, List.drop_succ_cons, List.drop_left]
    rw [this, ← hlf, List.take_length, Out.mapM_eq_ok, List.forall₂_map_right_iff]
    clear hh hcount hc hc' e hl hne hr hlp hlf s1 s2 hpl h1 this
    induction hfl with
    | nil => exact .nil
    | cons h _ ih =>
      exact .cons (parseFace_line h (h3 _ (by simp)) (s3 _ (by simp)) (hi _ (by simp)))
        (ih (fun f hf => h3 f (by simp [hf])) (fun f hf => hi f (by simp [hf])) (fun f hf => s3 f (by simp [hf])))
  rw [(Out.both_ok (p := (_, _))).2 ⟨h1, h2⟩, Out.ok_bind]
  rfl

theorem dblOverflow_big : (2 : ℚ) ^ 53 < dblOverflow := by
  unfold dblOverflow
  have h1 : (2 : ℚ) ^ 1024 = 2 ^ 54 * 2 ^ 970 := by rw [← pow_add]
  have h2 : (2 : ℚ) ^ 53 ≤ 2 ^ 970 := pow_le_pow_right₀ (by norm_num) (by norm_num)
  rw [h1]
  have h3 : (2 : ℚ) ^ 54 = 18014398509481984 := by norm_num
  rw [h3]
  have h4 : (0 : ℚ) < 2 ^ 970 := by positivity
  generalize (2 : ℚ) ^ 970 = x at h2 h4 ⊢
  clear h1 h3
  generalize (2 : ℚ) ^ 53 = y at h2 ⊢
  linarith

theorem dec_of_nat {w : Text} {n : ℕ} (h : IsNat w n) : IsDec w n := by
  obtain ⟨hd, hne, rfl⟩ := h
  have := IsDec.mk .none hd .none .none (Or.inl hne)
  simpa [digitsValue] using this

theorem decs_of_nats {l : Text} {ns : List ℕ} (h : NatLine l ns) : DecLine l (ns.map fun n : ℕ => (n : ℚ)) := by
  obtain ⟨ws, hw, hf⟩ := h
  refine ⟨ws, hw, ?_⟩
  rw [List.forall₂_map_right_iff]
  exact hf.imp fun _ _ h => dec_of_nat h

theorem not_white_space {c : Char} (h : ¬ White c) (hn : c ≠ '\n') : isSpace c = false := by
  unfold White at h
  unfold isSpace
  simp only [Bool.or_eq_false_iff, beq_eq_false_iff_ne]
  tauto

theorem mem_lines {t : Text} {ls : List Text} (h : Lines t ls) : ∀ l ∈ ls, '\n' ∉ l := by
  induction h with
  | nil => simp
  | last h => simpa using h
  | cons h _ ih => intro l hl; rcases List.mem_cons.1 hl with rfl | hl; exacts [h, ih l hl]

theorem firstToken_word {b : Char} {r n : Text} (hb : White b) (hn : '\n' ∉ r) (h : Words r [n]) : Obj.firstToken (b :: r) = n := by
  cases h with
  | @cons b' w r' ws hb' hw hnw hs hr =>
    have hnl : ∀ c ∈ n, isSpace c = false := fun c hc => not_white_space (hnw c hc) (by
      rintro rfl; exact hn (by simp [hc]))
    unfold Obj.firstToken
    rw [skipWs_cons (white_space hb), skipWs_white hb', skipWs_of_head]
    · have hst := stop_of_white hs
      cases r' with
      | nil =>
        rw [List.append_nil, List.takeWhile_eq_self_iff]
        intro c hc; simp [hnl c hc]
      | cons c r' =>
        rw [List.takeWhile_append_of_pos (fun c hc => by simp [hnl c hc]), List.takeWhile_cons, hst c rfl]
        simp
    · intro c hc
      cases n with
      | nil => exact absurd rfl hw
      | cons n0 n => simp at hc; subst hc; exact hnl _ (by simp)

/-- The mesh of an object of an OBJ file with vertices `P` (counted from 0). -/
def objMesh (P : List (V3 ℚ)) (o : Text × List (List ℕ)) : Mesh :=
  Mesh.make o.1 ((Obj.addSeen [] o.2.flatten).map fun i => P.getD i ⟨0, 0, 0⟩)
    (o.2.map fun is => ⟨is.map fun i => (Obj.addSeen [] o.2.flatten).idxOf i⟩)

theorem polygons_objMesh {P : List (V3 ℚ)} {o : Text × List (List ℕ)} (h : ∀ is ∈ o.2, ∀ i ∈ is, i < P.length) :
    polygons (objMesh P o) = o.2.map (·.map fun i => P[i]?) ∧ Valid (objMesh P o) := by
  have key : ∀ is ∈ o.2, ∀ i ∈ is, i ∈ Obj.addSeen [] o.2.flatten := fun is his i hi =>
    Obj.mem_addSeen.2 (Or.inr (List.mem_flatten.2 ⟨is, his, hi⟩))
  constructor
  · unfold polygons objMesh Mesh.make polygon
    simp only [List.map_map]
    apply List.map_congr_left
    intro is his
    simp only [Function.comp, List.map_map]
    apply List.map_congr_left
    intro i hi
    simp only [Function.comp]
    rw [List.getElem?_map, List.getElem?_idxOf (key is his i hi)]
    simp [List.getD, List.getElem?_eq_getElem (h is his i hi)]
  · intro f hf i hi
    unfold objMesh Mesh.make at hf ⊢
    simp only [List.mem_map] at hf
    obtain ⟨is, his, rfl⟩ := hf
    simp only [List.mem_map] at hi
    obtain ⟨j, hj, rfl⟩ := hi
    simp only [List.length_map]
    exact List.idxOf_lt_length_of_mem (key is his j hj)

theorem readObj_objMesh {rnd : ℚ → ℚ} {P : List (V3 ℚ)} {n : Text} {fl : List Text} {idxs : List (List ℕ)}
    (hF : List.Forall₂ (fun l is => Out.mapM Obj.toIndex (scanDecs rnd l.tail) = .ok is) fl idxs)
    (h3 : ∀ is ∈ idxs, 3 ≤ is.length) (hi : ∀ is ∈ idxs, ∀ i ∈ is, i < P.length) :
    Obj.readObj rnd P (n, fl) = .ok (objMesh P (n, idxs)) := by
  unfold Obj.readObj
  simp only
  rw [Obj.readFacets_ok [] hF h3, Out.ok_bind]
  simp only
  have : Obj.select P (Obj.addSeen [] idxs.flatten) =
      .ok ((Obj.addSeen [] idxs.flatten).map fun i => P.getD i ⟨0, 0, 0⟩) := by
    unfold Obj.select
    rw [Out.mapM_eq_ok, List.forall₂_map_right_iff]
    apply List.forall₂_same.2
    intro i hm
    have hm : i ∈ idxs.flatten := by simpa using Obj.mem_addSeen.1 hm
    obtain ⟨is, his, him⟩ := List.mem_flatten.1 hm
    rw [Out.idx_eq_ok]
    simp [List.getD, List.getElem?_eq_getElem (hi is his i him)]
  rw [this, Out.ok_bind]
  rfl

theorem forall₂_common {α β γ : Type} {R : β → γ → Prop} {as : List (α × β)} {bs : List (α × γ)}
    (h : List.Forall₂ (fun a b => a.1 = b.1 ∧ R a.2 b.2) as bs) :
    ∃ zs : List (α × (β × γ)), as = zs.map (fun z => (z.1, z.2.1)) ∧ bs = zs.map (fun z => (z.1, z.2.2)) ∧ ∀ z ∈ zs, R z.2.1 z.2.2 := by
  induction h with
  | nil => exact ⟨[], rfl, rfl, by simp⟩
  | @cons a b as bs hab _ ih =>
    obtain ⟨zs, rfl, rfl, hz⟩ := ih
    refine ⟨(a.1, (a.2, b.2)) :: zs, rfl, ?_, ?_⟩
    · simp [hab.1]
    · intro z hz'
      rcases List.mem_cons.1 hz' with rfl | hz'
      exacts [hab.2, hz z hz']

theorem read_objText {rnd : ℚ → ℚ} (hr : ∀ n : ℕ, n ≤ 2 ^ 53 → rnd n = n) {t : Text} {vs : List (V3 ℚ)}
    {objs : List (Text × List (List ℕ))} (h : ObjText t vs objs) (hne : vs ≠ [] ∨ objs ≠ []) (hp : ∀ p ∈ vs, DecFinite p)
    (h3 : ∀ o ∈ objs, ∀ f ∈ o.2, 3 ≤ f.length) (hi : ∀ o ∈ objs, ∀ f ∈ o.2, ∀ i ∈ f, i ≤ vs.length) (hs : vs.length ≤ 2 ^ 53) :
    Obj.read rnd t = .ok ((Obj.emplaceAll objs).map (objMesh (⟨0, 0, 0⟩ :: vs.map (convert rnd)))) := by
  obtain ⟨ls, vl, secs, hl, hc, hvl, hsec⟩ := h
  have hrl := readlines_of_lines hl
  have hnl := mem_lines hl
  have hparse : Obj.parse t = vl ++ secs.flatMap (fun s => s.1 :: s.2) := by
    rw [← hc]
    unfold Obj.parse
    rw [hrl]
    apply List.filter_congr
    intro l _
    cases l with
    | nil => simp
    | cons c l => simp [Bool.beq_eq_decide_eq]
  have hmem : ∀ l ∈ vl ++ secs.flatMap (fun s => s.1 :: s.2), '\n' ∉ l := by
    intro l hl'
    rw [← hc] at hl'
    exact hnl l (List.mem_of_mem_filter hl')
  -- the sections in the form of the reader
  obtain ⟨secs', hsec1, hsec2⟩ : ∃ secs' : List (Text × List Text), secs = secs'.map (fun s => ('o' :: s.1, s.2)) ∧
      List.Forall₂ (fun s o => Obj.firstToken s.1 = o.1 ∧
        List.Forall₂ (fun l is => ∃ w r, White w ∧ l = 'f' :: w :: r ∧ NatLine r is) s.2 o.2) secs' objs := by
    have hmem' : ∀ s ∈ secs, '\n' ∉ s.1 := fun s hs' => hmem _ (by
      rw [List.mem_append, List.mem_flatMap]; exact Or.inr ⟨s, hs', by simp⟩)
    clear hc hparse hmem hi h3 hne hl hrl hnl
    induction hsec with
    | nil => exact ⟨[], rfl, .nil⟩
    | @cons s o ss os h1 _ ih =>
      obtain ⟨secs', e, hF⟩ := ih fun s hs' => hmem' s (by simp [hs'])
      obtain ⟨⟨w, r, hw, he, hwr⟩, hfl⟩ := h1
      refine ⟨(w :: r, s.2) :: secs', ?_, .cons ⟨?_, hfl⟩ hF⟩
      · rw [List.map_cons, ← e, ← he]
      · have := hmem' s (by simp)
        rw [he] at this
        exact firstToken_word hw (fun hc => this (by simp [hc])) hwr
  have hlines : Obj.parse t = vl ++ secs'.flatMap Obj.secLines := by
    rw [hparse, hsec1, List.flatMap_map]
    rfl
  have hV : ∀ l ∈ vl, Obj.isV l = true := by
    intro l hl'
    obtain ⟨hlen, hg⟩ := List.forall₂_iff_get.1 hvl
    obtain ⟨i, hi', rfl⟩ := List.mem_iff_getElem.1 hl'
    obtain ⟨w, r, -, e, -⟩ := hg i hi' (hlen ▸ hi')
    simp only [List.get_eq_getElem] at e
    rw [e]
    rfl
  have htake : (vl ++ secs'.flatMap Obj.secLines).takeWhile Obj.isV = vl := by
    rw [List.takeWhile_append_of_pos hV]
    cases secs' with
    | nil => simp
    | cons s ss => simp [Obj.secLines, Obj.isV]
  have hnoO : ∀ s ∈ secs', ∀ l ∈ s.2, Obj.isO l = false := by
    intro s hs' l hl'
    obtain ⟨i, hi', rfl⟩ := List.mem_iff_getElem.1 hs'
    obtain ⟨hlen, hg⟩ := List.forall₂_iff_get.1 hsec2
    obtain ⟨-, h2⟩ := hg i hi' (hlen ▸ hi')
    obtain ⟨hlen2, hg2⟩ := List.forall₂_iff_get.1 h2
    obtain ⟨j, hj, rfl⟩ := List.mem_iff_getElem.1 hl'
    obtain ⟨w, r, -, e, -⟩ := hg2 j hj (hlen2 ▸ hj)
    simp only [List.get_eq_getElem] at e
    rw [e]
    rfl
  set P : List (V3 ℚ) := ⟨0, 0, 0⟩ :: vs.map (convert rnd) with hP
  unfold Obj.read
  simp only
  rw [hlines]
  rw [if_neg]
  swap
  · intro e
    rw [List.append_eq_nil_iff] at e
    rcases hne with hne | hne
    · rw [e.1] at hvl; cases hvl; exact hne rfl
    · cases secs' with
      | nil => cases hsec2; exact hne rfl
      | cons s ss => simp [Obj.secLines] at e
  have hpts : Obj.readPoints rnd (vl ++ secs'.flatMap Obj.secLines) = .ok P := by
    unfold Obj.readPoints
    rw [htake]
    have : Out.mapM (fun l => Obj.line2pt rnd (List.tail l)) vl = .ok (vs.map (convert rnd)) := by
      rw [Out.mapM_eq_ok, List.forall₂_map_right_iff]
      clear hV htake hmem hparse hc hlines hs hi hne hP P
      induction hvl with
      | nil => exact .nil
      | @cons l p _ _ h _ ih =>
        refine .cons ?_ (ih fun p hp' => hp p (by simp [hp']))
        obtain ⟨w, r, hw, rfl, hd⟩ := h
        obtain ⟨f1, f2, f3⟩ := hp p (by simp)
        unfold Obj.line2pt
        rw [List.tail_cons, scanDecs_space rnd (white_space hw), scanDecs_line hd (by
          intro q hq
          simp only [List.mem_cons, List.not_mem_nil, or_false] at hq
          rcases hq with rfl | rfl | rfl <;> assumption)]
        rfl
    rw [this, Out.ok_bind]
  rw [hpts, Out.ok_bind]
  have hfun : Obj.readObject rnd (vl ++ secs'.flatMap Obj.secLines) P =
      fun o => Obj.readObj rnd P (o.1, ((vl ++ secs'.flatMap Obj.secLines).drop o.2.1).take o.2.2) := by
    funext o; exact Obj.readObject_eq ..
  rw [hfun, Obj.mapM_comp (Obj.readObj rnd P)
    (fun o : Text × Nat × Nat => (o.1, ((vl ++ secs'.flatMap Obj.secLines).drop o.2.1).take o.2.2))]
  have hobj : (Obj.objects (vl ++ secs'.flatMap Obj.secLines)).map
      (fun o => (o.1, ((vl ++ secs'.flatMap Obj.secLines).drop o.2.1).take o.2.2)) =
      Obj.emplaceAll (secs'.map fun s => (Obj.firstToken s.1, s.2)) := by
    unfold Obj.objects
    simp only
    rw [htake, List.drop_left' rfl,
      ← Obj.emplaceAll_map (fun q : Nat × Nat => ((vl ++ secs'.flatMap Obj.secLines).drop q.1).take q.2)]
    rw [Obj.resolve_sections (vl ++ secs'.flatMap Obj.secLines) secs' vl rfl hnoO]
  rw [hobj]
  obtain ⟨zs, hz1, hz2, hz⟩ := forall₂_common (α := Text)
    (R := fun (a : List Text) (b : List (List ℕ)) =>
      List.Forall₂ (fun l is => ∃ w r, White w ∧ l = 'f' :: w :: r ∧ NatLine r is) a b)
    (as := secs'.map fun s => (Obj.firstToken s.1, s.2)) (bs := objs) (by rw [List.forall₂_map_left_iff]; exact hsec2)
  rw [hz1, hz2, Obj.emplaceAll_map (fun z : List Text × List (List ℕ) => z.1),
    Obj.emplaceAll_map (fun z : List Text × List (List ℕ) => z.2), ← Obj.mapM_comp, List.map_map, Out.mapM_eq_ok,
    List.forall₂_map_right_iff]
  apply List.forall₂_same.2
  intro z hzm
  have hzm := Obj.mem_emplaceAll hzm
  have hzo : (z.1, z.2.2) ∈ objs := by rw [hz2]; exact List.mem_map.2 ⟨z, hzm, rfl⟩
  have hbnd : ∀ is ∈ z.2.2, ∀ i ∈ is, i ≤ 2 ^ 53 := fun is his i him => (hi _ hzo is his i him).trans hs
  apply readObj_objMesh
  · have := hz z hzm
    revert this hbnd
    generalize z.2.1 = a, z.2.2 = b
    intro hbnd hF
    induction hF with
    | nil => exact .nil
    | @cons l is _ _ h _ ih =>
      refine .cons ?_ (ih fun is his => hbnd is (by simp [his]))
      obtain ⟨w, r, hw, rfl, hd⟩ := h
      have hb := hbnd is (by simp)
      rw [List.tail_cons, scanDecs_space rnd (white_space hw), scanDecs_line (decs_of_nats hd) (by
        intro q hq
        obtain ⟨n, hn, rfl⟩ := List.mem_map.1 hq
        rw [abs_of_nonneg (Nat.cast_nonneg n)]
        have : (n : ℚ) ≤ 2 ^ 53 := by exact_mod_cast hb n hn
        exact lt_of_le_of_lt this dblOverflow_big)]
      rw [List.map_map, Out.mapM_eq_ok, List.forall₂_map_left_iff]
      apply List.forall₂_same.2
      intro n hn
      simp only [Function.comp]
      rw [hr n (hb n hn)]
      exact Obj.toIndex_natCast (hb n hn)
  · exact h3 _ hzo
  · intro is his i him
    rw [hP]
    simp only [List.length_cons, List.length_map]
    exact Nat.lt_succ_of_le (hi _ hzo is his i him)

/-- C81 (OBJ): whatever the blanks, the signs, the exponents, the comments and the empty lines, an OBJ text whose objects have different
names gives one mesh per object, by increasing name, with the polygons the face lines describe: vertex `i` is the `i`-th vertex line,
converted to doubles. -/
theorem C81_obj_partial (rnd : ℚ → ℚ) (hr : ∀ n : ℕ, n ≤ 2 ^ 53 → rnd n = n) (t : Text) (vs : List (V3 ℚ))
    (objs : List (Text × List (List ℕ))) (h : ObjText t vs objs) (hne : vs ≠ [] ∨ objs ≠ []) (hd : (objs.map (·.1)).Nodup)
    (hp : ∀ p ∈ vs, DecFinite p) (h3 : ∀ o ∈ objs, ∀ f ∈ o.2, 3 ≤ f.length)
    (hi : ∀ o ∈ objs, ∀ f ∈ o.2, ∀ i ∈ f, 1 ≤ i ∧ i ≤ vs.length) (hs : vs.length ≤ 2 ^ 53) :
    ∃ rs, Obj.read rnd t = .ok rs ∧ rs.Pairwise (fun a b => a.name < b.name) ∧
      (∀ r ∈ rs, Valid r ∧ r.bbox = Mesh.computeBbox r.points) ∧
      (rs.map fun r => (r.name, polygons r)).Perm
        (objs.map fun o => (o.1, o.2.map (·.map fun i => (vs[i - 1]?).map (convert rnd)))) := by
  refine ⟨_, read_objText hr h hne hp h3 (fun o ho f hf i him => (hi o ho f hf i him).2) hs, ?_, ?_, ?_⟩
  · rw [List.pairwise_map]
    exact Obj.sorted_emplaceAll objs
  · intro r hrm
    obtain ⟨o, ho, rfl⟩ := List.mem_map.1 hrm
    refine ⟨(polygons_objMesh ?_).2, rfl⟩
    intro is his i him
    simp only [List.length_cons, List.length_map]
    exact Nat.lt_succ_of_le (hi o (Obj.mem_emplaceAll ho) is his i him).2
  · rw [List.map_map]
    refine ((Obj.perm_emplaceAll hd).map _).trans (List.Perm.of_eq ?_)
    apply List.map_congr_left
    intro o ho
    simp only [Function.comp]
    rw [(polygons_objMesh (by
      intro is his i him
      simp only [List.length_cons, List.length_map]
      exact Nat.lt_succ_of_le (hi o ho is his i him).2)).1]
    refine Prod.ext rfl ?_
    apply List.map_congr_left
    intro is his
    apply List.map_congr_left
    intro i him
    obtain ⟨j, rfl⟩ : ∃ j, i = j + 1 := ⟨i - 1, by have := (hi o ho is his i him).1; omega⟩
    rw [List.getElem?_cons_succ, List.getElem?_map]
    rfl

/-! ### Line ends -/

/-- The same text with the line ends of Windows. -/
def crlf (t : Text) : Text := t.flatMap fun c => if c = '\n' then ['\r', '\n'] else [c]

/-- C81 as stated: a text in OFF or OBJ notation is read as what it says, with either kind of line ends. False: `C81_refuted`. -/
def C81_full : Prop := ∀ (rnd : ℚ → ℚ) (lf : Bool) (t : Text) (ps : List (V3 ℚ)) (fs : List (List ℕ)), OffText t ps fs →
  (∀ p ∈ ps, DecFinite p) → (∀ f ∈ fs, 3 ≤ f.length) → (∀ f ∈ fs, ∀ i ∈ f, i < ps.length) →
  ps.length < 2 ^ 58 ∧ fs.length < 2 ^ 58 ∧ (∀ f ∈ fs, f.length < 2 ^ 60) →
  Off.read rnd lf t = .ok (Mesh.make [] (ps.map (convert rnd)) (fs.map fun f => ⟨f⟩)) ∧ Off.read rnd lf (crlf t) = Off.read rnd lf t

theorem crlf_line {l : Text} (h : '\n' ∉ l) : crlf l = l := by
  unfold crlf
  induction l with
  | nil => rfl
  | cons c l ih =>
    rw [List.mem_cons, not_or] at h
    rw [List.flatMap_cons, ih h.2, if_neg (fun e => h.1 e.symm)]
    rfl

theorem crlf_cons {l : Text} (h : '\n' ∉ l) (t : Text) : crlf (l ++ '\n' :: t) = (l ++ ['\r']) ++ '\n' :: crlf t := by
  have : crlf (l ++ '\n' :: t) = crlf l ++ ('\r' :: '\n' :: crlf t) := by
    unfold crlf
    rw [List.flatMap_append, List.flatMap_cons]
    rfl
  rw [this, crlf_line h]
  simp

/-- Every line gets a carriage return, but a last one without end. -/
theorem lines_crlf {t : Text} {ls : List Text} (h : Lines t ls) :
    Lines (crlf t) (ls.map (· ++ ['\r'])) ∨
      ∃ a l, ls = a ++ [l] ∧ Lines (crlf t) (a.map (· ++ ['\r']) ++ [l]) := by
  induction h with
  | nil => exact Or.inl .nil
  | @last l h hne => exact Or.inr ⟨[], l, rfl, by rw [crlf_line h]; exact .last h hne⟩
  | @cons l t ls h _ ih =>
    have hr : '\n' ∉ l ++ ['\r'] := by
      rw [List.mem_append]; rintro (hc | hc)
      · exact h hc
      · revert hc; decide
    rw [crlf_cons h]
    rcases ih with ih | ⟨a, x, rfl, ih⟩
    · exact Or.inl (.cons hr ih)
    · exact Or.inr ⟨l :: a, x, rfl, .cons hr ih⟩

theorem first_of_filter {p : Text → Bool} {ls : List Text} {a b : Text} {r : List Text} (h : ls.filter p = a :: b :: r) :
    ∃ u v, ls = u ++ a :: v ∧ v ≠ [] ∧ (∀ l ∈ u, p l = false) ∧ p a = true := by
  induction ls with
  | nil => cases h
  | cons l ls ih =>
    rw [List.filter_cons] at h
    split at h
    · rename_i hl
      injection h with h1 h2
      subst h1
      refine ⟨[], ls, rfl, ?_, by simp, hl⟩
      rintro rfl
      cases h2
    · rename_i hl
      obtain ⟨u, v, rfl, hv, hu, ha⟩ := ih h
      refine ⟨l :: u, v, rfl, hv, ?_, ha⟩
      intro x hx
      rcases List.mem_cons.1 hx with rfl | hx
      exacts [by simpa using hl, hu x hx]

/-- C81: no OFF text with the line ends of Windows is read: the word OFF is not recognised. -/
theorem C81_off_crlf (rnd : ℚ → ℚ) (lf : Bool) (t : Text) (ps : List (V3 ℚ)) (fs : List (List ℕ)) (h : OffText t ps fs) :
    Off.read rnd lf (crlf t) = .thrown .failure := by
  obtain ⟨ls, l1, pl, fl, hl, hne, hc, -⟩ := h
  obtain ⟨u, v, hls, hv, hu, -⟩ := first_of_filter hc
  have key : ∃ v', readlines (crlf t) = u.map (· ++ ['\r']) ++ ['O', 'F', 'F', '\r'] :: v' ∧ [] ∉ v' := by
    rcases lines_crlf hl with h | ⟨a, l, e, h⟩
    · refine ⟨v.map (· ++ ['\r']), ?_, by simp⟩
      rw [readlines_of_lines h, hls]
      simp
    · have hlast : l ≠ [] := by rintro rfl; exact hne (by rw [e]; simp)
      rw [hls] at e
      obtain ⟨v0, x, rfl⟩ : ∃ v0 x, v = v0 ++ [x] := ⟨v.dropLast, v.getLast hv, (List.dropLast_append_getLast hv).symm⟩
      rw [← List.cons_append, ← List.append_assoc] at e
      obtain ⟨e1, e2⟩ := List.append_inj' e rfl
      injection e2 with e2 _
      subst e2
      refine ⟨v0.map (· ++ ['\r']) ++ [x], ?_, ?_⟩
      · rw [readlines_of_lines h, ← e1]
        simp
      · simp [hlast.symm]
  obtain ⟨v', hrl, hv'⟩ := key
  unfold Off.read
  rw [parseLines_eq, if_neg, Out.ok_bind]
  · have : (readlines (crlf t)).filter (fun l => !isCommentLine l) =
        ['O', 'F', 'F', '\r'] :: v'.filter (fun l => !isCommentLine l) := by
      rw [hrl, List.filter_append, List.filter_cons]
      have h1 : (u.map (· ++ ['\r'])).filter (fun l => !isCommentLine l) = [] := by
        rw [List.filter_eq_nil_iff]
        intro l hl'
        obtain ⟨x, hx, rfl⟩ := List.mem_map.1 hl'
        have := hu x hx
        cases x with
        | nil => exact absurd (by rw [hls]; simp [hx]) hne
        | cons c x => simpa [isCommentLine] using this
      rw [h1, if_pos (by decide)]
      rfl
    rw [this]
    simp only
    rw [if_pos (by decide)]
  · rw [hrl]
    simp [hv']

theorem natLine_of {l : Text} {ws : List Text} {ns : List ℕ} (h : Words l ws) (h' : List.Forall₂ IsNat ws ns) : NatLine l ns := ⟨ws, h, h'⟩

theorem words_spaces (ws : List Text) (h : ∀ w ∈ ws, w ≠ [] ∧ ∀ c ∈ w, ¬ White c) :
    Words (ws.flatMap fun w => ' ' :: w) ws := by
  induction ws with
  | nil => exact .nil (by simp)
  | cons w ws ih =>
    obtain ⟨h1, h2⟩ := h w (by simp)
    refine Words.cons (b := [' ']) (w := w) (by simp [White]) h1 h2 ?_ (ih fun w hw => h w (by simp [hw]))
    intro c hc
    cases ws with
    | nil => cases hc
    | cons w' ws => simp at hc; subst hc; exact Or.inl rfl

theorem isNat_natText (n : ℕ) : IsNat (natText n) n := by
  refine ⟨?_, natText_ne_nil n, by rw [← natVal_eq, natVal_natText]⟩
  intro c hc
  have := natText_digits n c hc
  unfold isDigit at this
  simp only [decide_eq_true_eq] at this
  have key : ∀ k : Fin 10, Char.ofNat (48 + k) ∈ ['0', '1', '2', '3', '4', '5', '6', '7', '8', '9'] := by decide
  have e := key ⟨c.toNat - 48, by omega⟩
  simp only at e
  rwa [show 48 + (c.toNat - 48) = c.toNat by omega, Char.ofNat_toNat] at e

theorem natLine_natTexts (ns : List ℕ) : NatLine (ns.flatMap fun n => ' ' :: natText n) ns := by
  refine ⟨ns.map natText, ?_, ?_⟩
  · have := words_spaces (ns.map natText) (by
      intro w hw
      obtain ⟨n, -, rfl⟩ := List.mem_map.1 hw
      refine ⟨natText_ne_nil n, fun c hc hw => ?_⟩
      have := not_digit_of_space (white_space hw)
      rw [natText_digits n c hc] at this
      cases this)
    rwa [List.flatMap_map] at this
  · rw [List.forall₂_map_left_iff]
    exact List.forall₂_same.2 fun n _ => isNat_natText n

theorem C81_refuted : ¬ C81_full := by
  intro h
  have ht : OffText "OFF\n 0 0 0".toList [] [] := by
    refine ⟨[['O', 'F', 'F'], [' ', '0', ' ', '0', ' ', '0']], [' ', '0', ' ', '0', ' ', '0'], [], [], ?_, by decide, by decide, ?_, .nil, .nil⟩
    · exact Lines.cons (l := ['O', 'F', 'F']) (by decide) (.last (by decide) (by decide))
    · exact natLine_natTexts [0, 0, 0]
  obtain ⟨h1, h2⟩ := h id true _ _ _ ht (by simp) (by simp) (by simp) (by simp)
  rw [C81_off_crlf id true _ _ _ ht, h1] at h2
  cases h2

theorem words_append_cr {l : Text} {ws : List Text} (h : Words l ws) : Words (l ++ ['\r']) ws := by
  induction h with
  | nil hb =>
    refine .nil fun c hc => ?_
    rcases List.mem_append.1 hc with hc | hc
    · exact hb c hc
    · simp at hc; subst hc; exact Or.inr (Or.inr (Or.inr (Or.inr rfl)))
  | @cons b w r ws hb hw hn hs _ ih =>
    rw [List.append_assoc, List.append_assoc]
    refine .cons hb hw hn ?_ ih
    intro c hc
    cases r with
    | nil => simp at hc; subst hc; exact Or.inr (Or.inr (Or.inr (Or.inr rfl)))
    | cons d r => exact hs c (by simpa using hc)

/-- C81 (OBJ): the line ends of Windows change nothing when the text has no empty line. -/
theorem C81_obj_crlf (t : Text) (vs : List (V3 ℚ)) (objs : List (Text × List (List ℕ))) (h : ObjText t vs objs) (hne : [] ∉ readlines t) :
    ObjText (crlf t) vs objs := by
  obtain ⟨ls, vl, secs, hl, hc, hvl, hsec⟩ := h
  have hrl := readlines_of_lines hl
  rw [hrl] at hne
  -- both forms of the text differ line by line in an optional carriage return
  obtain ⟨g, hg, hl'⟩ : ∃ ls', List.Forall₂ (fun l l' => l' = l ∨ l' = l ++ ['\r']) ls ls' ∧ Lines (crlf t) ls' := by
    rcases lines_crlf hl with h | ⟨a, l, e, h⟩
    · exact ⟨_, by rw [List.forall₂_map_right_iff]; exact List.forall₂_same.2 fun l _ => Or.inr rfl, h⟩
    · refine ⟨_, ?_, h⟩
      rw [e]
      refine List.rel_append ?_ (.cons (Or.inl rfl) .nil)
      rw [List.forall₂_map_right_iff]
      exact List.forall₂_same.2 fun l _ => Or.inr rfl
  have hfil : List.Forall₂ (fun l l' => l' = l ∨ l' = l ++ ['\r']) (ls.filter fun l => l ≠ [] ∧ l.head? ≠ some '#')
      (g.filter fun l => l ≠ [] ∧ l.head? ≠ some '#') := by
    clear hc hl hl' hrl
    induction hg with
    | nil => exact .nil
    | @cons l l' _ _ h _ ih =>
      have hl0 : l ≠ [] := fun e => hne (by simp [e])
      have hi := ih fun hc => hne (by simp [hc])
      have e : (l' ≠ [] ∧ l'.head? ≠ some '#') ↔ (l ≠ [] ∧ l.head? ≠ some '#') := by
        rcases h with rfl | rfl
        · rfl
        · cases l with
          | nil => exact absurd rfl hl0
          | cons c l => simp
      rw [List.filter_cons, List.filter_cons]
      simp only [e]
      split
      · exact .cons h hi
      · exact hi
  rw [hc] at hfil
  obtain ⟨vl', rest', hfv, hfr, he⟩ : ∃ vl' rest', List.Forall₂ (fun l l' => l' = l ∨ l' = l ++ ['\r']) vl vl' ∧
      List.Forall₂ (fun l l' => l' = l ∨ l' = l ++ ['\r']) (secs.flatMap fun s => s.1 :: s.2) rest' ∧
      (g.filter fun l => l ≠ [] ∧ l.head? ≠ some '#') = vl' ++ rest' := by
    have hlen := hfil.length_eq
    refine ⟨(g.filter fun l => l ≠ [] ∧ l.head? ≠ some '#').take vl.length, (g.filter fun l => l ≠ [] ∧ l.head? ≠ some '#').drop vl.length, ?_, ?_,
      (List.take_append_drop _ _).symm⟩
    · have := List.forall₂_take vl.length hfil
      rwa [List.take_left] at this
    · have := List.forall₂_drop vl.length hfil
      rwa [List.drop_left] at this
  have hvl' : List.Forall₂ (fun l p => ∃ w r, White w ∧ l = 'v' :: w :: r ∧ DecLine r [p.x, p.y, p.z]) vl' vs := by
    clear he hc hfil
    induction hvl generalizing vl' with
    | nil => cases hfv; exact .nil
    | cons h _ ih =>
      obtain ⟨l', vl'', h1, h2, rfl⟩ := List.forall₂_cons_left_iff.1 hfv
      refine .cons ?_ (ih vl'' h2)
      obtain ⟨w, r, hw, rfl, ws, hws, hd⟩ := h
      rcases h1 with rfl | rfl
      · exact ⟨w, r, hw, rfl, ws, hws, hd⟩
      · exact ⟨w, r ++ ['\r'], hw, rfl, ws, words_append_cr hws, hd⟩
  obtain ⟨secs', hs', hsec'⟩ : ∃ secs' : List (Text × List Text), rest' = secs'.flatMap (fun s => s.1 :: s.2) ∧
      List.Forall₂ (fun s o => (∃ w r, White w ∧ s.1 = 'o' :: w :: r ∧ Words r [o.1]) ∧
      List.Forall₂ (fun l is => ∃ w r, White w ∧ l = 'f' :: w :: r ∧ NatLine r is) s.2 o.2) secs' objs := by
    clear he hc hfil hfv hvl hvl'
    induction hsec generalizing rest' with
    | nil => cases hfr; exact ⟨[], rfl, .nil⟩
    | @cons s o _ _ h _ ih =>
      rw [List.flatMap_cons, List.cons_append] at hfr
      obtain ⟨o', r1, h1, h2, rfl⟩ := List.forall₂_cons_left_iff.1 hfr
      have h2a := List.forall₂_take s.2.length h2
      have h2b := List.forall₂_drop s.2.length h2
      rw [List.take_left] at h2a
      rw [List.drop_left] at h2b
      obtain ⟨secs', e, hF⟩ := ih _ h2b
      refine ⟨(o', r1.take s.2.length) :: secs', ?_, .cons ⟨?_, ?_⟩ hF⟩
      · rw [List.flatMap_cons, ← e]
        simp
      · obtain ⟨⟨w, r, hw, he, hws⟩, -⟩ := h
        rcases h1 with rfl | rfl
        · exact ⟨w, r, hw, he, hws⟩
        · exact ⟨w, r ++ ['\r'], hw, by simp [he], words_append_cr hws⟩
      · obtain ⟨-, hfl⟩ := h
        simp only
        revert hfl h2a
        generalize List.take s.2.length r1 = q
        generalize s.2 = fl, o.2 = idx
        intro h2a hfl
        clear * - h2a hfl
        induction hfl generalizing q with
        | nil => cases h2a; exact .nil
        | cons h _ ih =>
          obtain ⟨l', q', h1, h2, rfl⟩ := List.forall₂_cons_left_iff.1 h2a
          refine .cons ?_ (ih q' h2)
          obtain ⟨w, r, hw, rfl, ws, hws, hd⟩ := h
          rcases h1 with rfl | rfl
          · exact ⟨w, r, hw, rfl, ws, hws, hd⟩
          · exact ⟨w, r ++ ['\r'], hw, rfl, ws, words_append_cr hws, hd⟩
  exact ⟨g, vl', secs', hl', by rw [he, hs'], hvl', hsec'⟩

instance (c : Char) : Decidable (White c) := by unfold White; infer_instance
instance (t : Text) : Decidable (Digits t) := by unfold Digits; infer_instance

theorem decLine_cons {b w r : Text} {q : ℚ} {qs : List ℚ} (hb : ∀ c ∈ b, White c) (hw : w ≠ []) (hn : ∀ c ∈ w, ¬ White c) (hd : IsDec w q)
    (hs : ∀ c, r.head? = some c → White c) (h : DecLine r qs) : DecLine (b ++ (w ++ r)) (q :: qs) := by
  obtain ⟨ws, h1, h2⟩ := h
  exact ⟨w :: ws, .cons hb hw hn hs h1, .cons hd h2⟩

theorem decLine_nil : DecLine [] [] := ⟨[], .nil (by simp), .nil⟩

/-- The hypotheses of C81 are met by a text with a comment, a tab, signs, exponents, a fraction without integer part and a last line
without end: the line `+1e1 -.5<tab>2.` is the point (10, -1/2, 2). -/
theorem sample_point : DecLine "+1e1 -.5\t2.".toList [10, -1 / 2, 2] := by
  have d1 : IsDec ['+', '1', 'e', '1'] 10 := by
    have := IsDec.mk (s := ['+']) (a := ['1']) (f := []) .plus (by decide) .none
      (.some (c := 'e') (s := []) (d := ['1']) (Or.inl rfl) .none (by decide) (by decide)) (Or.inl (by decide))
    simpa [digitsValue] using this
  have d2 : IsDec ['-', '.', '5'] (-1 / 2) := by
    have := IsDec.mk (s := ['-']) (a := []) (x := []) .minus (by decide) (.point (b := ['5']) (by decide)) .none (Or.inr (by decide))
    have e : (((-1 : ℤ) : ℚ) * ((digitsValue [] : ℚ) + digitsValue ['5'] / 10 ^ ['5'].length) * (10 : ℚ) ^ (0 : ℤ)) = -1 / 2 := by
      rw [show digitsValue [] = 0 from rfl, show digitsValue ['5'] = 5 from rfl]
      norm_num
    rw [e] at this
    exact this
  have d3 : IsDec ['2', '.'] 2 := by
    have := IsDec.mk (s := []) (a := ['2']) (x := []) .none (by decide) (.point (b := []) (by decide)) .none (Or.inl (by decide))
    simpa [digitsValue] using this
  have l3 := decLine_cons (b := ['\t']) (w := ['2', '.']) (r := []) (by decide) (by decide) (by decide) d3 (by simp) decLine_nil
  have l2 := decLine_cons (b := [' ']) (w := ['-', '.', '5']) (by decide) (by decide) (by decide) d2 (by
    intro c hc; simp at hc; subst hc; decide) l3
  exact decLine_cons (b := []) (w := ['+', '1', 'e', '1']) (by decide) (by decide) (by decide) d1 (by
    intro c hc; simp at hc; subst hc; decide) l2

theorem sample_off : OffText "# a\nOFF\n 1 1 0\n+1e1 -.5\t2.\n# b\n 3 0 0 0".toList [⟨10, -1 / 2, 2⟩] [[0, 0, 0]] := by
  refine ⟨["# a".toList, "OFF".toList, " 1 1 0".toList, "+1e1 -.5\t2.".toList, "# b".toList, " 3 0 0 0".toList],
    " 1 1 0".toList, ["+1e1 -.5\t2.".toList], [" 3 0 0 0".toList], ?_, by decide, by decide, ?_, .cons sample_point .nil, .cons ?_ .nil⟩
  · exact Lines.cons (l := "# a".toList) (by decide) (Lines.cons (l := "OFF".toList) (by decide)
      (Lines.cons (l := " 1 1 0".toList) (by decide) (Lines.cons (l := "+1e1 -.5\t2.".toList) (by decide)
      (Lines.cons (l := "# b".toList) (by decide) (.last (by decide) (by decide))))))
  · exact natLine_natTexts [1, 1, 0]
  · exact natLine_natTexts [3, 0, 0, 0]

example : Off.read id true "# a\nOFF\n 1 1 0\n+1e1 -.5\t2.\n# b\n 3 0 0 0".toList =
    .ok (Mesh.make [] [⟨10, -1 / 2, 2⟩] [⟨[0, 0, 0]⟩]) := by
  have b : ∀ q : ℚ, |q| ≤ 2 ^ 53 → |q| < dblOverflow := fun q h => lt_of_le_of_lt h dblOverflow_big
  exact C81_off_partial id true _ _ _ sample_off (by
    intro p hp
    simp only [List.mem_cons, List.not_mem_nil, or_false] at hp
    subst hp
    refine ⟨b _ ?_, b _ ?_, b _ ?_⟩
    · norm_num
    · rw [abs_le]; norm_num
    · norm_num) (by decide) (by decide) (by decide)

theorem sample_obj : ObjText "v +1e1 -.5\t2.\n\no hut\n# c\nf  1 1 1\no\tb\n".toList [⟨10, -1 / 2, 2⟩]
    [("hut".toList, [[1, 1, 1]]), ("b".toList, [])] := by
  refine ⟨["v +1e1 -.5\t2.".toList, [], "o hut".toList, "# c".toList, "f  1 1 1".toList, "o\tb".toList], ["v +1e1 -.5\t2.".toList],
    [("o hut".toList, ["f  1 1 1".toList]), ("o\tb".toList, [])], ?_, by decide, ?_, ?_⟩
  · exact Lines.cons (l := "v +1e1 -.5\t2.".toList) (by decide) (Lines.cons (l := []) (by decide)
      (Lines.cons (l := "o hut".toList) (by decide) (Lines.cons (l := "# c".toList) (by decide)
      (Lines.cons (l := "f  1 1 1".toList) (by decide) (Lines.cons (l := "o\tb".toList) (by decide) .nil)))))
  · exact .cons ⟨' ', _, by decide, rfl, sample_point⟩ .nil
  · refine .cons ⟨⟨' ', "hut".toList, by decide, rfl, ?_⟩, .cons ⟨' ', " 1 1 1".toList, by decide, rfl, natLine_natTexts [1, 1, 1]⟩ .nil⟩
      (.cons ⟨⟨'\t', "b".toList, by decide, rfl, ?_⟩, .nil⟩ .nil)
    · exact Words.cons (b := []) (w := "hut".toList) (r := []) (by decide) (by decide) (by decide) (by simp) (.nil (by simp))
    · exact Words.cons (b := []) (w := "b".toList) (r := []) (by decide) (by decide) (by decide) (by simp) (.nil (by simp))

end City.Props
