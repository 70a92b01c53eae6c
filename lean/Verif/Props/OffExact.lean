import Verif.Props.Grammar
/-!
C19: the exact texts on which reading OFF is undefined.
-/
namespace City.Props
open City Spec

/-- A point line whose reading is undefined: fewer than three numbers. -/
def ShortPoint (rnd : ℚ → ℚ) (l : Text) : Prop := (scanDecs rnd l).length < 3

/-- A face line whose reading is undefined: more indexes than the declared degree. -/
def LongFace (l : Text) : Prop := ∃ n ns, scanNats l = n :: ns ∧ n < ns.length ∧ n < 2 ^ 60

/-- A face line that gives a face: a degree of three at least and not more indexes than it. -/
def GoodFace (l : Text) : Prop := ∃ n ns, scanNats l = n :: ns ∧ ns.length ≤ n ∧ 3 ≤ n ∧ n < 2 ^ 60

/-- The first face line that does not give a face is undefined (and not refused). -/
def FirstLong (fl : List Text) : Prop := ∃ a l b, fl = a ++ l :: b ∧ (∀ x ∈ a, GoodFace x) ∧ LongFace l

theorem mapM_eq_ub {α β : Type} {f : α → Out β} {l : List α} :
    Out.mapM f l = .ub ↔ ∃ a x b, l = a ++ x :: b ∧ (∀ y ∈ a, ∃ v, f y = .ok v) ∧ f x = .ub := by
  induction l with
  | nil => simp
  | cons c l ih =>
    rw [Out.mapM_cons]
    cases hc : f c with
    | ok v =>
      rw [Out.ok_bind]
      have : (Out.mapM f l >>= fun bs => Out.ok (v :: bs)) = .ub ↔ Out.mapM f l = .ub := by
        rw [Out.bind_eq_ub]
        constructor
        · rintro (h | ⟨_, _, h⟩)
          · exact h
          · cases h
        · exact Or.inl
      rw [this, ih]
      constructor
      · rintro ⟨a, x, b, rfl, ha, hx⟩
        refine ⟨c :: a, x, b, rfl, ?_, hx⟩
        intro y hy
        rcases List.mem_cons.1 hy with rfl | hy
        exacts [⟨v, hc⟩, ha y hy]
      · rintro ⟨a, x, b, e, ha, hx⟩
        cases a with
        | nil => injection e with e1 e2; subst e1; rw [hc] at hx; cases hx
        | cons a0 a =>
          injection e with e1 e2
          exact ⟨a, x, b, e2, fun y hy => ha y (by simp [hy]), hx⟩
    | thrown e =>
      rw [Out.thrown_bind]
      constructor
      · intro h; cases h
      · rintro ⟨a, x, b, e', ha, hx⟩
        cases a with
        | nil => injection e' with e1 e2; subst e1; rw [hc] at hx; cases hx
        | cons a0 a =>
          injection e' with e1 e2
          subst e1
          obtain ⟨v, hv⟩ := ha c (by simp)
          rw [hc] at hv; cases hv
    | ub =>
      rw [Out.ub_bind]
      exact ⟨fun _ => ⟨[], c, l, rfl, by simp, hc⟩, fun _ => rfl⟩

theorem parsePoint_ub {rnd : ℚ → ℚ} {l : Text} : Off.parsePoint rnd l = .ub ↔ ShortPoint rnd l := by
  unfold Off.parsePoint ShortPoint
  match scanDecs rnd l with
  | [] => simp
  | [_] => simp
  | [_, _] => simp
  | _ :: _ :: _ :: r => simp

theorem parsePoint_ok {rnd : ℚ → ℚ} {l : Text} : (∃ v, Off.parsePoint rnd l = .ok v) ↔ ¬ ShortPoint rnd l := by
  unfold Off.parsePoint ShortPoint
  match scanDecs rnd l with
  | [] => simp
  | [_] => simp
  | [_, _] => simp
  | a :: b :: c :: r => exact ⟨fun _ => by simp, fun _ => ⟨_, rfl⟩⟩

theorem fillIndexes_ub {n : ℕ} {ns : List ℕ} : Off.fillIndexes n ns = .ub ↔ n < ns.length ∧ n < 2 ^ 60 := by
  unfold Off.fillIndexes Face.mk?
  by_cases h1 : 2 ^ 60 ≤ n
  · rw [if_pos h1]; simp; omega
  · rw [if_neg h1]
    by_cases h2 : n < ns.length
    · rw [if_pos h2]; simp; omega
    · rw [if_neg h2]
      split <;> simp <;> omega

theorem fillIndexes_ok {n : ℕ} {ns : List ℕ} : (∃ v, Off.fillIndexes n ns = .ok v) ↔ ns.length ≤ n ∧ 3 ≤ n ∧ n < 2 ^ 60 := by
  unfold Off.fillIndexes Face.mk?
  by_cases h1 : 2 ^ 60 ≤ n
  · rw [if_pos h1]; simp; omega
  · rw [if_neg h1]
    by_cases h2 : n < ns.length
    · rw [if_pos h2]; simp; omega
    · rw [if_neg h2]
      have : (ns ++ List.replicate (n - ns.length) 0).length = n := by simp; omega
      rw [this]
      by_cases h3 : n < 3
      · rw [if_pos h3]; simp; omega
      · rw [if_neg h3]; exact ⟨fun _ => ⟨by omega, by omega, by omega⟩, fun _ => ⟨_, rfl⟩⟩

theorem parseFace_cases {l : Text} :
    (Off.parseFace l = .ub ↔ LongFace l) ∧ ((∃ v, Off.parseFace l = .ok v) ↔ GoodFace l) := by
  unfold Off.parseFace LongFace GoodFace
  cases hs : scanNat l with
  | got n r =>
    simp only
    rw [scanNats_got hs, fillIndexes_ub, fillIndexes_ok]
    constructor
    · constructor
      · intro h; exact ⟨n, scanNats r, rfl, h⟩
      · rintro ⟨n', ns, e, h⟩; injection e with e1 e2; subst e1 e2; exact h
    · constructor
      · intro h; exact ⟨n, scanNats r, rfl, h⟩
      · rintro ⟨n', ns, e, h⟩; injection e with e1 e2; subst e1 e2; exact h
  | fail o =>
    simp only
    rw [scanNats_fail hs, fillIndexes_ub, fillIndexes_ok]
    refine ⟨by simp, ?_⟩
    constructor
    · rintro ⟨-, h3, h60⟩
      exfalso
      -- the number stored by a failed extraction is 0 or 2^64 - 1
      unfold scanNat at hs
      simp only at hs
      split at hs
      · cases hs; simp at h3
      · split at hs
        · cases hs; simp at h3
        · split at hs
          · cases hs; simp only [Option.getD_some] at h60
            have : szMod = 2 ^ 64 := rfl
            omega
          · cases hs
    · rintro ⟨n, ns, e, -⟩; cases e

theorem readPoints_ub {rnd : ℚ → ℚ} {pl : List Text} : Out.mapM (Off.parsePoint rnd) pl = .ub ↔ ∃ l ∈ pl, ShortPoint rnd l := by
  constructor
  · intro h
    obtain ⟨a, x, b, rfl, -, hx⟩ := mapM_eq_ub.1 h
    exact ⟨x, by simp, parsePoint_ub.1 hx⟩
  · rintro ⟨l, hl, hs⟩
    by_contra hne
    have : ∀ pl : List Text, Out.mapM (Off.parsePoint rnd) pl ≠ .ub → ∀ l ∈ pl, ¬ ShortPoint rnd l := by
      intro pl
      induction pl with
      | nil => simp
      | cons c pl ih =>
        intro hne l hl
        by_cases hc : ShortPoint rnd c
        · exact absurd (mapM_eq_ub.2 ⟨[], c, pl, rfl, by simp, parsePoint_ub.2 hc⟩) hne
        · rcases List.mem_cons.1 hl with rfl | hl
          · exact hc
          · refine ih ?_ l hl
            intro hu
            obtain ⟨v, hv⟩ := parsePoint_ok.2 hc
            exact hne (by rw [Out.mapM_cons, hv, Out.ok_bind, hu]; rfl)
    exact this pl hne l hl hs

theorem mapM_parsePoint_ok {rnd : ℚ → ℚ} {pl : List Text} : (∃ v, Out.mapM (Off.parsePoint rnd) pl = .ok v) ↔ ∀ l ∈ pl, ¬ ShortPoint rnd l := by
  induction pl with
  | nil => exact ⟨fun _ => by simp, fun _ => ⟨[], rfl⟩⟩
  | cons c pl ih =>
    rw [Out.mapM_cons]
    constructor
    · rintro ⟨v, hv⟩
      obtain ⟨x, hx, hv⟩ := Out.bind_eq_ok.1 hv
      obtain ⟨xs, hxs, -⟩ := Out.bind_eq_ok.1 hv
      intro l hl
      rcases List.mem_cons.1 hl with rfl | hl
      exacts [parsePoint_ok.1 ⟨x, hx⟩, ih.1 ⟨xs, hxs⟩ l hl]
    · intro h
      obtain ⟨x, hx⟩ := parsePoint_ok.2 (h c (by simp))
      obtain ⟨xs, hxs⟩ := ih.2 fun l hl => h l (by simp [hl])
      exact ⟨_, by rw [hx, Out.ok_bind, hxs, Out.ok_bind]⟩

theorem mapM_parseFace_ok {fl : List Text} : (∃ v, Out.mapM Off.parseFace fl = .ok v) ↔ ∀ l ∈ fl, GoodFace l := by
  induction fl with
  | nil => exact ⟨fun _ => by simp, fun _ => ⟨[], rfl⟩⟩
  | cons c pl ih =>
    rw [Out.mapM_cons]
    constructor
    · rintro ⟨v, hv⟩
      obtain ⟨x, hx, hv⟩ := Out.bind_eq_ok.1 hv
      obtain ⟨xs, hxs, -⟩ := Out.bind_eq_ok.1 hv
      intro l hl
      rcases List.mem_cons.1 hl with rfl | hl
      exacts [parseFace_cases.2.1 ⟨x, hx⟩, ih.1 ⟨xs, hxs⟩ l hl]
    · intro h
      obtain ⟨x, hx⟩ := parseFace_cases.2.2 (h c (by simp))
      obtain ⟨xs, hxs⟩ := ih.2 fun l hl => h l (by simp [hl])
      exact ⟨_, by rw [hx, Out.ok_bind, hxs, Out.ok_bind]⟩

theorem readFaces_ub {fl : List Text} : Out.mapM Off.parseFace fl = .ub ↔ FirstLong fl := by
  rw [mapM_eq_ub]
  unfold FirstLong
  constructor
  · rintro ⟨a, x, b, e, ha, hx⟩
    exact ⟨a, x, b, e, fun y hy => parseFace_cases.2.1 (ha y hy), parseFace_cases.1.1 hx⟩
  · rintro ⟨a, x, b, e, ha, hx⟩
    exact ⟨a, x, b, e, fun y hy => parseFace_cases.2.2 (ha y hy), parseFace_cases.1.2 hx⟩

theorem both_eq_ub {α β : Type} {lf : Bool} {a : Out α} {b : Out β} :
    Out.both lf a b = .ub ↔ if lf then a = .ub ∨ ((∃ v, a = .ok v) ∧ b = .ub) else b = .ub ∨ ((∃ v, b = .ok v) ∧ a = .ub) := by
  cases lf <;> cases a <;> cases b <;> simp [Out.both]

/-- C19: the exact texts on which reading is undefined, among those that declare less than 2^58 points and faces: no empty line, the word
OFF, then either a size line of more than three integers, or, the number of lines being right and the third integer zero or missing, a point line with
fewer than three numbers or a face line with more indexes than its degree, the lines of the other kind or the lines before being
accepted when they are looked at first (`lf`: the points are looked at first). -/
theorem C19_exact (rnd : ℚ → ℚ) (lf : Bool) (t : Text)
    (hsm : ∀ l0 l1 rest, contentLines t = l0 :: l1 :: rest → (scanNats l1).getD 0 0 < 2 ^ 58 ∧ (scanNats l1).getD 1 0 < 2 ^ 58) :
    Off.read rnd lf t = .ub ↔ [] ∉ readlines t ∧ ∃ l1 rest, contentLines t = ['O', 'F', 'F'] :: l1 :: rest ∧
      (3 < (scanNats l1).length ∨ (scanNats l1).getD 2 0 = 0 ∧ rest.length = (scanNats l1).getD 0 0 + (scanNats l1).getD 1 0 ∧
        let pl := rest.take ((scanNats l1).getD 0 0)
        let fl := rest.drop ((scanNats l1).getD 0 0)
        if lf then (∃ l ∈ pl, ShortPoint rnd l) ∨ FirstLong fl
        else FirstLong fl ∨ (∀ l ∈ fl, GoodFace l) ∧ ∃ l ∈ pl, ShortPoint rnd l) := by
  unfold Off.read
  rw [parseLines_eq]
  by_cases he : [] ∈ readlines t
  · rw [if_pos he]; simp [he]
  rw [if_neg he, Out.ok_bind]
  have hc : (readlines t).filter (fun l => !isCommentLine l) = contentLines t := rfl
  rw [hc]
  match hl : contentLines t with
  | [] => simp
  | [l0] => simp only; split <;> simp
  | l0 :: l1 :: rest =>
    simp only
    by_cases h0 : l0 = ['O', 'F', 'F']
    swap
    · rw [if_pos h0]
      simp [h0]
    rw [if_neg (not_not.2 h0)]
    subst h0
    obtain ⟨hs0, hs1⟩ := hsm _ _ _ hl
    have hR : (∃ l1' rest', ['O', 'F', 'F'] :: l1 :: rest = ['O', 'F', 'F'] :: l1' :: rest' ∧
        (3 < (scanNats l1').length ∨ (scanNats l1').getD 2 0 = 0 ∧ rest'.length = (scanNats l1').getD 0 0 + (scanNats l1').getD 1 0 ∧
        let pl := rest'.take ((scanNats l1').getD 0 0)
        let fl := rest'.drop ((scanNats l1').getD 0 0)
        if lf then (∃ l ∈ pl, ShortPoint rnd l) ∨ FirstLong fl
        else FirstLong fl ∨ (∀ l ∈ fl, GoodFace l) ∧ ∃ l ∈ pl, ShortPoint rnd l)) ↔
        (3 < (scanNats l1).length ∨ (scanNats l1).getD 2 0 = 0 ∧ rest.length = (scanNats l1).getD 0 0 + (scanNats l1).getD 1 0 ∧
        let pl := rest.take ((scanNats l1).getD 0 0)
        let fl := rest.drop ((scanNats l1).getD 0 0)
        if lf then (∃ l ∈ pl, ShortPoint rnd l) ∨ FirstLong fl
        else FirstLong fl ∨ (∀ l ∈ fl, GoodFace l) ∧ ∃ l ∈ pl, ShortPoint rnd l) := by
      constructor
      · rintro ⟨a, b, e, h⟩
        injection e with _ e
        injection e with e1 e2
        subst e1 e2
        exact h
      · intro h; exact ⟨l1, rest, rfl, h⟩
    rw [hR]
    simp only [he, not_false_eq_true, true_and]
    unfold Off.readHeader
    simp only
    by_cases h3 : 3 < (scanNats l1).length
    · rw [if_pos h3]; simp [h3]
    rw [if_neg h3]
    by_cases h2 : (scanNats l1).getD 2 0 ≠ 0
    · rw [if_pos h2]; simp only [h3, h2]; simp
    rw [if_neg h2]
    rw [not_not] at h2
    set s0 := (scanNats l1).getD 0 0
    set s1 := (scanNats l1).getD 1 0
    have hsz : szMod = 2 ^ 64 := rfl
    rw [Nat.mod_eq_of_lt (by omega)]
    by_cases hlen : (['O', 'F', 'F'] :: l1 :: rest).length ≠ 2 + s0 + s1
    · rw [if_pos hlen]
      have : ¬ rest.length = s0 + s1 := by
        intro e; apply hlen; simp only [List.length_cons]; omega
      simp [this, h3]
    rw [if_neg hlen, Out.ok_bind]
    simp only
    rw [not_not] at hlen
    simp only [List.length_cons] at hlen
    have hrl : rest.length = s0 + s1 := by omega
    have e1 : Off.readPoints rnd (['O', 'F', 'F'] :: l1 :: rest) s0 = Out.mapM (Off.parsePoint rnd) (rest.take s0) := by
      unfold Off.readPoints Off.slice
      rw [if_neg (by omega), if_pos (by simp only [List.length_cons]; omega), Out.ok_bind]
      rfl
    have e2 : Off.readFaces (['O', 'F', 'F'] :: l1 :: rest) ((2 + s0) % szMod) s1 = Out.mapM Off.parseFace (rest.drop s0) := by
      unfold Off.readFaces Off.slice
      rw [Nat.mod_eq_of_lt (by omega), if_neg (by omega), if_pos (by simp only [List.length_cons]; omega), Out.ok_bind]
      rw [show 2 + s0 = s0 + 2 by omega, List.drop_succ_cons, List.drop_succ_cons, List.take_of_length_le (by
        rw [List.length_drop]; omega)]
    have hb : (Out.both lf (Off.readPoints rnd (['O', 'F', 'F'] :: l1 :: rest) s0)
        (Off.readFaces (['O', 'F', 'F'] :: l1 :: rest) ((2 + s0) % szMod) s1) >>= fun r => .ok (Mesh.makeAnon r.1 r.2)) = .ub ↔
        Out.both lf (Off.readPoints rnd (['O', 'F', 'F'] :: l1 :: rest) s0)
        (Off.readFaces (['O', 'F', 'F'] :: l1 :: rest) ((2 + s0) % szMod) s1) = .ub := by
      rw [Out.bind_eq_ub]
      constructor
      · rintro (h | ⟨_, _, h⟩)
        · exact h
        · cases h
      · exact Or.inl
    rw [hb, both_eq_ub, e1, e2, readPoints_ub, readFaces_ub, mapM_parsePoint_ok, mapM_parseFace_ok]
    simp only [h3, h2, hrl, false_or, true_and]
    cases lf with
    | false => simp
    | true =>
      simp only [if_true]
      constructor
      · rintro (h | ⟨-, h⟩)
        exacts [Or.inl h, Or.inr h]
      · rintro (h | h)
        · exact Or.inl h
        · by_cases hp : ∃ l ∈ rest.take s0, ShortPoint rnd l
          · exact Or.inl hp
          · exact Or.inr ⟨by simpa using hp, h⟩

/-- A point line with two numbers, and a face line with more indexes than its degree, in otherwise correct texts: both are undefined,
whatever is looked at first. -/
example (lf : Bool) : Off.read id lf "OFF\n 1 0 0\n 1 2".toList = .ub ∧ Off.read id lf "OFF\n 0 1 0\n 3 0 0 0 0".toList = .ub := by
  have s1 : scanNats " 1 0 0".toList = [1, 0, 0] := scanNats_line (natLine_natTexts [1, 0, 0]) (by decide)
  have s2 : scanNats " 0 1 0".toList = [0, 1, 0] := scanNats_line (natLine_natTexts [0, 1, 0]) (by decide)
  have s3 : scanNats " 3 0 0 0 0".toList = [3, 0, 0, 0, 0] := scanNats_line (natLine_natTexts [3, 0, 0, 0, 0]) (by decide)
  have s4 : scanDecs id " 1 2".toList = [1, 2] := by
    have := scanDecs_line (rnd := id) (decs_of_nats (natLine_natTexts [1, 2])) (by
      intro q hq
      refine lt_of_le_of_lt ?_ dblOverflow_big
      simp only [List.map_cons, List.map_nil, List.mem_cons, List.not_mem_nil, or_false] at hq
      rcases hq with rfl | rfl <;> norm_num)
    rw [show (([1, 2] : List ℕ).map fun n : ℕ => (n : ℚ)).map id = [1, 2] by norm_num] at this
    exact this
  have c1 : contentLines "OFF\n 1 0 0\n 1 2".toList = [['O', 'F', 'F'], " 1 0 0".toList, " 1 2".toList] := by decide
  have c2 : contentLines "OFF\n 0 1 0\n 3 0 0 0 0".toList = [['O', 'F', 'F'], " 0 1 0".toList, " 3 0 0 0 0".toList] := by decide
  have n1 : [] ∉ readlines "OFF\n 1 0 0\n 1 2".toList := by decide
  have n2 : [] ∉ readlines "OFF\n 0 1 0\n 3 0 0 0 0".toList := by decide
  revert s1 s2 s3 s4 c1 c2 n1 n2
  generalize "OFF\n 1 0 0\n 1 2".toList = t1
  generalize "OFF\n 0 1 0\n 3 0 0 0 0".toList = t2
  generalize " 1 0 0".toList = a1
  generalize " 0 1 0".toList = a2
  generalize " 1 2".toList = b1
  generalize " 3 0 0 0 0".toList = b2
  intro s1 s2 s3 s4 c1 c2 n1 n2
  constructor
  · refine (C19_exact id lf t1 ?_).2 ⟨n1, a1, [b1], c1, Or.inr ⟨by simp [s1], by simp [s1], ?_⟩⟩
    · intro l0 l1 rest h
      rw [c1] at h
      injection h with _ h
      injection h with h _
      subst h
      simp [s1]
    · have : ShortPoint id b1 := by simp [ShortPoint, s4]
      cases lf <;> simp [s1, this]
  · refine (C19_exact id lf t2 ?_).2 ⟨n2, a2, [b2], c2, Or.inr ⟨by simp [s2], by simp [s2], ?_⟩⟩
    · intro l0 l1 rest h
      rw [c2] at h
      injection h with _ h
      injection h with h _
      subst h
      simp [s2]
    · have : FirstLong [b2] := ⟨[], b2, [], rfl, by simp, 3, [0, 0, 0, 0], s3, by decide, by decide⟩
      cases lf <;> simp [s2, this]

end City.Props
