import Verif.Model.Tools
import Verif.Props.Prune
/-!
C65: the adjacency stream.
-/
set_option linter.unusedSectionVars false
namespace City.Props
open City City.Spec

/-- The character of an entry. -/
def bit (b : Bool) : Char := if b then '1' else '0'

/-- What follows the entry number `k` in a matrix with `n` columns. -/
def sepAfter (n k : Nat) : Char := if (k + 1) % n = 0 then '\n' else ' '

theorem boolText_bit (b : Bool) : boolText b = [bit b] := by cases b <;> rfl

/-- The expected text of the entries in a list of positions. -/
def entries (m : List Bool) (n : Nat) (ks : List Nat) : Text := ks.flatMap fun k => [bit (m.getD k false), sepAfter n k]

theorem atOr_getD {m : List Bool} {k : Nat} (h : k < m.length) : Out.atOr m k = .ok (m.getD k false) := by
  rw [Out.atOr_eq_ok, List.getElem?_eq_getElem h, List.getD_eq_getElem _ _ h]

theorem rowText_spec (m : List Bool) (n row : Nat) (hr : (row + 1) * n ≤ m.length) : ∀ (j c : Nat), c + j + 1 = n →
    rowText m (row * n) (List.range' c j) = .ok (entries m n (List.range' (row * n + c) j))
  | 0, c, _ => rfl
  | j + 1, c, h => by
    have hlt : row * n + c < m.length := by
      have : (row + 1) * n = row * n + n := by ring
      omega
    rw [List.range'_succ, List.range'_succ, rowText, atOr_getD hlt, Out.ok_bind, rowText_spec m n row hr j (c + 1) (by omega), Out.ok_bind]
    have hs : sepAfter n (row * n + c) = ' ' := by
      unfold sepAfter
      rw [if_neg]
      have e : row * n + c + 1 = (c + 1) + n * row := by ring
      rw [e, Nat.add_mul_mod_self_left, Nat.mod_eq_of_lt (by omega)]
      omega
    simp only [entries, List.flatMap_cons, boolText_bit, hs, List.cons_append, List.nil_append, Nat.add_assoc]

theorem rowsText_spec (m : List Bool) (n : Nat) (hn : 0 < n) : ∀ (r a : Nat), (a + r) * n ≤ m.length →
    rowsText m n (List.range' a r) = .ok (entries m n (List.range' (a * n) (r * n)))
  | 0, a, _ => by simp [rowsText, entries]
  | r + 1, a, h => by
    have e1 : (a + (r + 1)) * n = (a + 1) * n + r * n := by ring
    have hr : (a + 1) * n ≤ m.length := by omega
    have e2 : (a + 1) * n = a * n + n := by ring
    have e5 : (a + 1 + r) * n = (a + (r + 1)) * n := by ring
    rw [List.range'_succ, rowsText, List.range_eq_range', rowText_spec m n a hr (n - 1) 0 (by omega), Out.ok_bind,
      atOr_getD (by omega), Out.ok_bind, rowsText_spec m n hn r (a + 1) (by omega), Out.ok_bind]
    congr 1
    have e3 : (r + 1) * n = (n - 1) + 1 + r * n := by
      have : (r + 1) * n = n + r * n := by ring
      omega
    have hs : sepAfter n (a * n + (n - 1)) = '\n' := by
      unfold sepAfter
      rw [if_pos]
      have e : a * n + (n - 1) + 1 = n * (a + 1) := by
        have : n * (a + 1) = a * n + n := by ring
        omega
      rw [e, Nat.mul_mod_right]
    rw [e3, show n - 1 + 1 + r * n = (n - 1) + (1 + r * n) by omega, ← List.range'_append (step := 1), ← List.range'_append (step := 1)]
    simp only [entries, List.flatMap_append, List.range'_one, List.flatMap_cons, List.flatMap_nil, Nat.add_zero, Nat.one_mul, boolText_bit, hs,
      List.append_nil, List.append_assoc, List.cons_append, List.nil_append]
    have e4 : a * n + (n - 1) + 1 = (a + 1) * n := by omega
    rw [e4]

theorem entries_length (m : List Bool) (n : Nat) (ks : List Nat) : (entries m n ks).length = 2 * ks.length := by
  induction ks with
  | nil => rfl
  | cons k ks ih => rw [entries, List.flatMap_cons, List.length_append]; rw [entries] at ih; rw [ih]; simp; omega

theorem entries_get (m : List Bool) (n : Nat) : ∀ (ks : List Nat) (i : Nat),
    (entries m n ks)[2 * i]? = (ks[i]?).map (fun k => bit (m.getD k false)) ∧ (entries m n ks)[2 * i + 1]? = (ks[i]?).map (sepAfter n)
  | [], i => by simp [entries]
  | k :: ks, 0 => by simp [entries]
  | k :: ks, i + 1 => by
    have := entries_get m n ks i
    rw [entries] at this
    rw [entries, List.flatMap_cons, show 2 * (i + 1) = 2 * i + 2 by ring]
    simpa using this

theorem adjacencyText_square (m : List Bool) (n : Nat) (h : m.length = n * n) : adjacencyText m = .ok (entries m n (List.range m.length)) := by
  unfold adjacencyText
  have hs : Nat.sqrt m.length = n := by rw [h, Nat.sqrt_eq]
  rw [hs, if_neg (by rw [h]; simp)]
  rcases Nat.eq_zero_or_pos n with rfl | hn
  · simp only [Nat.mul_zero] at h
    rw [h]; rfl
  · rw [List.range_eq_range', rowsText_spec m n hn n 0 (by simp [h]), List.range_eq_range', h]
    simp

/-- C65: a vector of `n * n` entries is written as `n` lines of `n` characters `0` or `1`, separated by blanks: entry `k` is at position `2k` and is
followed by a line break exactly at the end of a line. Any other size throws `logic_error`. For all vectors. -/
theorem C65_matrix (m : List Bool) :
    (∀ n, m.length = n * n → ∃ t, adjacencyText m = .ok t ∧ t.length = 2 * m.length ∧ ∀ k, (hk : k < m.length) →
      t[2 * k]? = some (if m[k] then '1' else '0') ∧ t[2 * k + 1]? = some (if (k + 1) % n = 0 then '\n' else ' ')) ∧
    ((∀ n, m.length ≠ n * n) → adjacencyText m = .thrown .logicError) := by
  constructor
  · intro n h
    refine ⟨_, adjacencyText_square m n h, by rw [entries_length, List.length_range], fun k hk => ?_⟩
    obtain ⟨h1, h2⟩ := entries_get m n (List.range m.length) k
    rw [h1, h2, List.getElem?_range hk]
    simp only [Option.map_some, List.getD_eq_getElem _ _ hk]
    exact ⟨rfl, rfl⟩
  · intro h
    unfold adjacencyText
    rw [if_pos]
    exact fun e => h _ e.symm

/-- C65: the text determines the vector. -/
theorem C65_injective (m m' : List Bool) (t : Text) (h : adjacencyText m = .ok t) (h' : adjacencyText m' = .ok t) : m = m' := by
  have hsq : ∀ m : List Bool, adjacencyText m = .ok t → ∃ n, m.length = n * n := by
    intro m h
    by_contra hc
    push Not at hc
    rw [(C65_matrix m).2 hc] at h
    cases h
  obtain ⟨n, hn⟩ := hsq m h
  obtain ⟨n', hn'⟩ := hsq m' h'
  obtain ⟨t1, e1, l1, g1⟩ := (C65_matrix m).1 n hn
  obtain ⟨t2, e2, l2, g2⟩ := (C65_matrix m').1 n' hn'
  have q1 : t1 = t := Out.ok.inj (e1.symm.trans h)
  have q2 : t2 = t := Out.ok.inj (e2.symm.trans h')
  subst q1
  subst q2
  have hl : m.length = m'.length := by omega
  apply List.ext_getElem hl
  intro k hk hk'
  have a := (g1 k hk).1
  have b := (g2 k hk').1
  rw [a] at b
  have := Option.some.inj b
  revert this
  cases m[k] <;> cases m'[k] <;> simp

/-- C65: a valid surface is never refused: its dual is the lines of its facets, followed by the matrix of `C57`, which is square. -/
theorem C65_dual {K : Type} [Field K] [LinearOrder K] [IsStrictOrderedRing K] (S : Surf K) (V : ValidSurf S) (attr : Nat → Text) :
    ∃ m t, S.adjacencyMatrix = .ok m ∧ adjacencyText m = .ok t ∧ m.length = S.fs.length * S.fs.length ∧
      dualText (fun f => .ok (attr f)) S = ((S.fs.flatMap fun f => attr f ++ ['\n']) ++ t ++ ['\n'], .ok ()) := by
  obtain ⟨m, h1, h2, _⟩ := C57_matrix V
  obtain ⟨t, h3, _⟩ := (C65_matrix m).1 _ h2
  refine ⟨m, t, h1, h3, h2, ?_⟩
  have hl : ∀ l : List Nat, facetLines (fun f => .ok (attr f)) l = (l.flatMap fun f => attr f ++ ['\n'], .ok ()) := by
    intro l
    induction l with
    | nil => rfl
    | cons f l ih => simp only [facetLines, ih, List.flatMap_cons, List.append_assoc, List.cons_append, List.nil_append]
  unfold dualText
  rw [hl, h1, Out.ok_bind, h3]

/-- C65: the matrix of any surface, valid or not, is never refused: if its facets can be walked around, it has `n * n` entries and is written; no exception can come from it. -/
theorem C65_never_refused {K : Type} (S : Surf K) (attr : Nat → Text) :
    (∃ m t, S.adjacencyMatrix = .ok m ∧ m.length = S.fs.length * S.fs.length ∧ adjacencyText m = .ok t ∧
      dualText (fun f => .ok (attr f)) S = ((S.fs.flatMap fun f => attr f ++ ['\n']) ++ t ++ ['\n'], .ok ())) ∨
    (S.adjacencyMatrix = .ub ∧ dualText (fun f => .ok (attr f)) S = (S.fs.flatMap fun f => attr f ++ ['\n'], .ub) ∧ ∃ f ∈ S.fs, S.around f = .ub) := by
  have hl : ∀ l : List Nat, facetLines (fun f => .ok (attr f)) l = (l.flatMap fun f => attr f ++ ['\n'], .ok ()) := by
    intro l
    induction l with
    | nil => rfl
    | cons f l ih => simp only [facetLines, ih, List.flatMap_cons, List.append_assoc, List.cons_append, List.nil_append]
  obtain ⟨m0, a1, a2, -⟩ := markDiagonal_spec S.fs.length (List.range S.fs.length) (List.replicate (S.fs.length * S.fs.length) false) (by simp)
    (fun d hd => List.mem_range.1 hd)
  have key : ∀ (r : List (Nat × Nat)) (m : List Bool), m.length = S.fs.length * S.fs.length → (∀ p ∈ r, p.1 ∈ S.fs ∧ p.2 < S.fs.length) →
      (∃ m', S.markLines r m = .ok m' ∧ m'.length = S.fs.length * S.fs.length) ∨ (S.markLines r m = .ub ∧ ∃ f ∈ S.fs, S.around f = .ub) := by
    intro r
    induction r with
    | nil => exact fun m hm _ => .inl ⟨m, rfl, hm⟩
    | cons p r ih =>
      obtain ⟨f, line⟩ := p
      intro m hm hr
      unfold Surf.markLines Surf.adjacents
      cases ha : S.around f with
      | ub => exact .inr ⟨rfl, f, (hr (f, line) (by simp)).1, ha⟩
      | thrown e =>
        unfold Surf.around at ha
        split at ha <;> cases ha
      | ok l =>
        rw [Out.ok_bind, Out.ok_bind]
        obtain ⟨m', h1, h2, -⟩ := markLine_spec S line (hr (f, line) (by simp)).2 ((l.filter fun h => !S.isBorder h).filterMap fun h => S.face (S.opp h)) m hm
        rw [h1, Out.ok_bind]
        exact ih m' h2 fun p hp => hr p (by simp [hp])
  have hz : ∀ p ∈ S.fs.zipIdx, p.1 ∈ S.fs ∧ p.2 < S.fs.length := by
    rintro ⟨f, i⟩ hp
    obtain ⟨h1, h2⟩ := List.mem_zipIdx' hp
    exact ⟨by rw [h2]; exact List.getElem_mem _, h1⟩
  rcases key S.fs.zipIdx m0 a2 hz with ⟨m', h1, h2⟩ | ⟨h1, h2⟩
  · left
    obtain ⟨t, h3, -⟩ := (C65_matrix m').1 _ h2
    have hm : S.adjacencyMatrix = .ok m' := by
      unfold Surf.adjacencyMatrix
      rw [a1, Out.ok_bind, h1]
    refine ⟨m', t, hm, h2, h3, ?_⟩
    unfold dualText
    rw [hl, hm, Out.ok_bind, h3]
  · right
    have hm : S.adjacencyMatrix = .ub := by
      unfold Surf.adjacencyMatrix
      rw [a1, Out.ok_bind, h1]
    refine ⟨hm, ?_, h2⟩
    unfold dualText
    rw [hl, hm]
    rfl

/-- The matrix of three facets in a row, as it is printed. -/
example : adjacencyText [true, true, false, true, true, true, false, true, true] = .ok "1 1 0\n1 1 1\n0 1 1\n".toList := by decide +kernel
example : adjacencyText [true, true] = .thrown .logicError := by decide +kernel
/-- The dual of the tetrahedron. -/
example : (dualText (fun _ => .ok []) tetra).1 = "\n\n\n\n1 1 1 1\n1 1 1 1\n1 1 1 1\n1 1 1 1\n\n".toList := by decide +kernel

end City.Props
