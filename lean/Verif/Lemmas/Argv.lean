import Verif.Lemmas.Docopt
import Verif.Spec.CommandLine
import Mathlib.Data.List.TakeWhile
/-
What parse_argv makes of a command line, against the language of Spec/CommandLine.
-/
namespace City.Docopt
open City City.Spec

set_option linter.unusedSectionVars false

/-- The names of a table of options. -/
def knownOf (os : List Opt) : List (Text × Bool) := os.map fun o => (o.long, o.takes)

/-- A table of options: at least two, with different long names; only the help has a short name. -/
structure Table (os : List Opt) : Prop where
  dashes : ∀ o ∈ os, "--".toList <+: o.long ∧ '=' ∉ o.long
  short : ∀ o ∈ os, o.short ≠ [] → o = helpOpt
  nodup : (os.map Opt.long).Nodup
  many : 2 ≤ os.length
  noBare : ∀ o ∈ os, o.long ≠ "--".toList

theorem ortho_table : Table orthoOpts := ⟨by decide +kernel, by decide +kernel, by decide +kernel, by decide +kernel, by decide +kernel⟩

theorem format_table : Table formatOpts := ⟨by decide +kernel, by decide +kernel, by decide +kernel, by decide +kernel, by decide +kernel⟩

theorem dashes_eq : "--".toList = ['-', '-'] := by decide +kernel

theorem Table.name {os : List Opt} (h : Table os) {o : Opt} (ho : o ∈ os) : o.name = o.long := by
  unfold Opt.name
  apply if_neg
  intro e
  have := (h.dashes o ho).1
  rw [e, dashes_eq] at this
  simp at this

theorem partition_none {t : Text} (h : '=' ∉ t) : partition t = (t, none) := by
  have : t.dropWhile (· != '=') = [] := by
    rw [List.dropWhile_eq_nil_iff]
    intro c hc
    simp only [bne_iff_ne, ne_eq]
    rintro rfl
    exact h hc
  unfold partition
  rw [this]

theorem takeWhile_stop {x : Text} (h : '=' ∉ x) (v : Text) : (x ++ '=' :: v).takeWhile (· != '=') = x ∧ (x ++ '=' :: v).dropWhile (· != '=') = '=' :: v := by
  induction x with
  | nil => simp
  | cons c x ih =>
    have hc : c ≠ '=' := by
      rintro rfl
      simp at h
    have := ih (fun k => h (List.mem_cons_of_mem _ k))
    simp [hc, this.1, this.2]

theorem partition_some {x : Text} (h : '=' ∉ x) (v : Text) : partition (x ++ '=' :: v) = (x, some v) := by
  unfold partition
  rw [(takeWhile_stop h v).2, (takeWhile_stop h v).1]

theorem partition_cases (t : Text) : ('=' ∉ t ∧ partition t = (t, none)) ∨ ∃ x v, '=' ∉ x ∧ t = x ++ '=' :: v ∧ partition t = (x, some v) := by
  by_cases h : '=' ∈ t
  · right
    obtain ⟨x, v, e, hx⟩ := List.eq_append_cons_of_mem h
    exact ⟨x, v, hx, e, by rw [e]; exact partition_some hx v⟩
  · exact .inl ⟨h, partition_none h⟩

theorem filter_one {os : List Opt} (hn : (os.map Opt.long).Nodup) {o : Opt} (ho : o ∈ os) : os.filter (fun k => decide (k.long = o.long)) = [o] := by
  induction os with
  | nil => cases ho
  | cons k os ih =>
    simp only [List.map_cons, List.nodup_cons] at hn
    rcases List.mem_cons.1 ho with rfl | ho'
    · rw [List.filter_cons_of_pos (by simp), List.cons_inj_right, List.filter_eq_nil_iff]
      intro k' hk' e
      exact hn.1 (by rw [← of_decide_eq_true e]; exact List.mem_map_of_mem hk')
    · rw [List.filter_cons_of_neg, ih hn.2 ho']
      intro e
      exact hn.1 (by rw [of_decide_eq_true e]; exact List.mem_map_of_mem ho')

theorem similar_of_means {os : List Opt} (h : Table os) {x n : Text} {b : Bool} (hm : Means (knownOf os) x n b) :
    ∃ o ∈ os, o.long = n ∧ o.takes = b ∧ similar true x os = [o] := by
  obtain ⟨h1, -, -, h4, h5⟩ := hm
  obtain ⟨o, ho, e⟩ := List.mem_map.1 h1
  cases e
  refine ⟨o, ho, rfl, rfl, ?_⟩
  unfold similar
  by_cases hx : x = o.long
  · subst hx
    rw [filter_one h.nodup ho]
    simp
  · have hu := h5.resolve_left hx
    have e0 : os.filter (fun k => decide (k.long = x)) = [] := by
      rw [List.filter_eq_nil_iff]
      intro k hk e
      have ek : k.long = x := of_decide_eq_true e
      have := hu (k.long, k.takes) (List.mem_map_of_mem hk) (by simp [ek])
      exact hx (ek.symm.trans this)
    simp only [e0]
    rw [if_pos ⟨trivial, trivial⟩, ← filter_one h.nodup ho]
    apply List.filter_congr
    intro k hk
    simp only [List.isPrefixOf_iff_prefix, ne_eq, decide_eq_decide]
    constructor
    · rintro ⟨-, hp⟩
      exact hu (k.long, k.takes) (List.mem_map_of_mem hk) hp
    · intro e
      rw [e]
      refine ⟨fun e' => ?_, h4⟩
      have := (h.dashes o ho).1
      rw [e', dashes_eq] at this
      simp at this

theorem means_of_similar {os : List Opt} (h : Table os) {x : Text} (hd : "--".toList <+: x) {o : Opt} (hs : similar true x os = [o]) :
    o ∈ os ∧ Means (knownOf os) x o.long o.takes := by
  have hne : ∀ k ∈ os, k.long ≠ [] := by
    intro k hk e
    have := (h.dashes k hk).1
    rw [e, dashes_eq] at this
    simp at this
  unfold similar at hs
  simp only [true_and] at hs
  split at hs
  · rename_i e0
    have ho : o ∈ os.filter fun k => decide (k.long ≠ [] ∧ x.isPrefixOf k.long) := by rw [hs]; simp
    obtain ⟨h1, h2⟩ := List.mem_filter.1 ho
    simp only [List.isPrefixOf_iff_prefix, ne_eq, decide_eq_true_eq] at h2
    have hu : ∀ k ∈ knownOf os, x <+: k.1 → k.1 = o.long := by
      intro k hk hp
      obtain ⟨q, hq, rfl⟩ := List.mem_map.1 hk
      have : q ∈ os.filter fun k => decide (k.long ≠ [] ∧ x.isPrefixOf k.long) :=
        List.mem_filter.2 ⟨hq, by simpa [List.isPrefixOf_iff_prefix] using ⟨hne q hq, hp⟩⟩
      rw [hs, List.mem_singleton] at this
      rw [this]
    refine ⟨h1, List.mem_map.2 ⟨o, h1, rfl⟩, hd, ?_, h2.2, .inr hu⟩
    rintro rfl
    have := h.many
    have hn := h.nodup
    match os, this, hn, h.dashes, hu with
    | a :: b :: t, _, hn, hdash, hu =>
      have ea := hu (a.long, a.takes) (by simp [knownOf]) (hdash a (by simp)).1
      have eb := hu (b.long, b.takes) (by simp [knownOf]) (hdash b (by simp)).1
      simp only at ea eb
      simp [ea, eb] at hn
  · have ho : o ∈ os.filter fun k => decide (k.long = x) := by rw [hs]; simp
    obtain ⟨h1, h2⟩ := List.mem_filter.1 ho
    have e : o.long = x := of_decide_eq_true h2
    refine ⟨h1, List.mem_map.2 ⟨o, h1, rfl⟩, hd, ?_, by rw [e], .inl e.symm⟩
    rintro rfl
    exact h.noBare o h1 e

/-- The value of an option on the command line: its argument, or that it is there. -/
def asArg : Option Text → Arg
  | none => .bool true
  | some v => .str v

/-- The options with their values. -/
def asItems (os : List (Text × Option Text)) : List (Text × Arg) := os.map fun o => (o.1, asArg o.2)

theorem names_asItems (os : List (Text × Option Text)) : (asItems os).map Prod.fst = os.map Prod.fst := by
  simp [asItems]

theorem means_no_equals {os : List Opt} (h : Table os) {x n : Text} {b : Bool} (hm : Means (knownOf os) x n b) : '=' ∉ x := by
  obtain ⟨o, ho, e⟩ := List.mem_map.1 hm.1
  cases e
  intro k
  exact (h.dashes o ho).2 (hm.2.2.2.1.subset k)

theorem known_same {os : List Opt} {x : Text} {v : Option Text} (h : similar true x os ≠ []) : known true x v os = os := by
  unfold known
  rw [if_neg h]

/-- Every command line of the language is read as it is meant. -/
theorem parse_spells {os : List Opt} (h : Table os) {argv ws : List Text} {opts : List (Text × Option Text)} (hs : Spells (knownOf os) argv ws opts) :
    ∃ items, parseArgv none argv os = some items ∧ argsOf items = ws ∧ optsOf items = asItems opts := by
  have pre : ∀ {x n b}, Means (knownOf os) x n b → ∀ v : Text, "--".toList.isPrefixOf (x ++ v) = true := by
    intro x n b hm v
    rw [List.isPrefixOf_iff_prefix]
    exact hm.2.1.trans (List.prefix_append x v)
  induction hs with
  | done => exact ⟨[], rfl, rfl, rfl⟩
  | @word w a ws os' hw _ ih =>
    obtain ⟨items, h1, h2, h3⟩ := ih
    refine ⟨.arg w :: items, ?_, by simp [argsOf, h2], by simp [optsOf, h3]⟩
    have n1 : w ≠ "--".toList := by
      rintro rfl
      rcases hw with k | k
      · rw [dashes_eq] at k
        simp at k
      · revert k
        decide +kernel
    have n2 : ¬ "--".toList.isPrefixOf w = true := by
      rw [List.isPrefixOf_iff_prefix, dashes_eq]
      rintro ⟨t, rfl⟩
      rcases hw with k | k
      · simp at k
      · have := congrArg List.length k
        rw [show "-".toList = ['-'] by decide +kernel] at this
        simp at this
    have n3 : ¬ (w.head? = some '-' ∧ w ≠ "-".toList) := by
      rintro ⟨k1, k2⟩
      rcases hw with k | k
      · exact k k1
      · exact k2 k
    rw [parseArgv, if_neg n1, if_neg n2, if_neg n3, h1]
    rfl
  | rest a =>
    refine ⟨("--".toList :: a).map .arg, by rw [parseArgv, if_pos rfl], ?_, ?_⟩
    · generalize "--".toList :: a = l
      induction l with
      | nil => rfl
      | cons x l ih => simp [argsOf, ih]
    · generalize "--".toList :: a = l
      induction l with
      | nil => rfl
      | cons x l ih => simpa [optsOf, asItems] using ih
  | @switch x n a ws os' hm _ ih =>
    obtain ⟨items, h1, h2, h3⟩ := ih
    obtain ⟨o, ho, e1, e2, e3⟩ := similar_of_means h hm
    refine ⟨.opt n (.bool true) :: items, ?_, by simp [argsOf, h2], by simp [optsOf, h3, asItems, asArg]⟩
    have hp := partition_none (means_no_equals h hm)
    have hl : long x os = some (n, some (.bool true)) := by
      unfold long
      rw [hp]
      simp only [e3, e2]
      rw [h.name ho, e1]
      simp
    have hx := pre hm []
    rw [List.append_nil] at hx
    rw [parseArgv, if_neg hm.2.2.1, if_pos hx, hl]
    simp only
    rw [known_same (by rw [hp, e3]; simp), h1]
    rfl
  | @equals x n v a ws os' hm _ ih =>
    obtain ⟨items, h1, h2, h3⟩ := ih
    obtain ⟨o, ho, e1, e2, e3⟩ := similar_of_means h hm
    refine ⟨.opt n (.str v) :: items, ?_, by simp [argsOf, h2], by simp [optsOf, h3, asItems, asArg]⟩
    have hp := partition_some (means_no_equals h hm) v
    have hl : long (x ++ '=' :: v) os = some (n, some (.str v)) := by
      unfold long
      rw [hp]
      simp only [e3, e2]
      rw [h.name ho, e1]
      simp
    have n1 : x ++ '=' :: v ≠ "--".toList := by
      intro k
      have : '=' ∈ "--".toList := by rw [← k]; simp
      revert this
      decide +kernel
    rw [parseArgv, if_neg n1, if_pos (pre hm _), hl]
    simp only
    rw [known_same (by rw [hp, e3]; simp), h1]
    rfl
  | @next x n v a ws os' hm hv1 hv2 _ ih =>
    obtain ⟨items, h1, h2, h3⟩ := ih
    obtain ⟨o, ho, e1, e2, e3⟩ := similar_of_means h hm
    refine ⟨.opt n (.str v) :: items, ?_, by simp [argsOf, h2], by simp [optsOf, h3, asItems, asArg]⟩
    have hp := partition_none (means_no_equals h hm)
    have hl : long x os = some (n, none) := by
      unfold long
      rw [hp]
      simp only [e3, e2]
      rw [h.name ho, e1]
      simp
    have hx := pre hm []
    rw [List.append_nil] at hx
    rw [parseArgv, if_neg hm.2.2.1, if_pos hx, hl]
    simp only
    rw [parseArgv, if_neg (not_or.2 ⟨hv1, hv2⟩), h1]
    rfl

/-- A command line that is read as options of the table, without help, belongs to the language. -/
theorem spells_parse {os : List Opt} (h : Table os) : ∀ (argv : List Text) (items : List Item), parseArgv none argv os = some items →
    (∀ n ∈ (optsOf items).map Prod.fst, n ∈ os.map Opt.long ∧ n ≠ "--help".toList) →
    ∃ opts, Spells (knownOf os) argv (argsOf items) opts ∧ optsOf items = asItems opts := by
  have main : ∀ (k : Nat) (argv : List Text), argv.length ≤ k → ∀ (items : List Item), parseArgv none argv os = some items →
    (∀ n ∈ (optsOf items).map Prod.fst, n ∈ os.map Opt.long ∧ n ≠ "--help".toList) →
    ∃ opts, Spells (knownOf os) argv (argsOf items) opts ∧ optsOf items = asItems opts := by
    intro k
    induction k with
    | zero =>
      intro argv hk items hp _
      obtain rfl : argv = [] := by simpa using hk
      rw [parseArgv] at hp
      cases hp
      exact ⟨[], .done, rfl⟩
    | succ k ih =>
      intro argv hk items hp hn
      cases argv with
      | nil =>
        rw [parseArgv] at hp
        cases hp
        exact ⟨[], .done, rfl⟩
      | cons t ts =>
        have hk' : ts.length ≤ k := by simpa using hk
        rw [parseArgv] at hp
        by_cases n1 : t = "--".toList
        · rw [if_pos n1] at hp
          cases hp
          subst n1
          have a1 : ∀ l : List Text, argsOf (l.map Item.arg) = l := by
            intro l
            induction l with
            | nil => rfl
            | cons x l ih => simp [argsOf, ih]
          have a2 : ∀ l : List Text, optsOf (l.map Item.arg) = [] := by
            intro l
            induction l with
            | nil => rfl
            | cons x l ih => simpa [optsOf] using ih
          rw [a1, a2]
          exact ⟨[], .rest ts, rfl⟩
        · rw [if_neg n1] at hp
          by_cases n2 : "--".toList.isPrefixOf t = true
          · rw [if_pos n2] at hp
            have hd : "--".toList <+: (partition t).1 := by
              rw [List.isPrefixOf_iff_prefix] at n2
              rcases partition_cases t with ⟨-, e⟩ | ⟨x, v, hx, e, e'⟩
              · rwa [e]
              · rw [e']
                rw [e, dashes_eq] at n2
                rw [dashes_eq]
                match x, n2 with
                | [], n2 => simp at n2
                | [c], n2 => simp at n2
                | c :: d :: x, n2 =>
                  simp only [List.cons_append, List.cons_prefix_cons] at n2
                  simp only [List.cons_prefix_cons]
                  exact ⟨n2.1, n2.2.1, List.nil_prefix⟩
            cases hsim : similar true (partition t).1 os with
            | nil =>
              exfalso
              have hl : ∃ w, long t os = some ((partition t).1, some w) := by
                unfold long
                rw [hsim]
                exact ⟨_, rfl⟩
              obtain ⟨w, hl⟩ := hl
              rw [hl] at hp
              simp only at hp
              obtain ⟨r, -, rfl⟩ := Option.map_eq_some_iff.1 hp
              obtain ⟨o, ho, e⟩ := List.mem_map.1 (hn (partition t).1 (by simp [optsOf])).1
              unfold similar at hsim
              simp only [true_and] at hsim
              split at hsim
              · rename_i e0
                have : o ∈ os.filter fun k => decide (k.long = (partition t).1) := List.mem_filter.2 ⟨ho, by simp [e]⟩
                rw [e0] at this
                cases this
              · rename_i e0
                exact e0 hsim
            | cons o l =>
              cases l with
              | cons o' l =>
                exfalso
                have hl : long t os = none := by
                  unfold long
                  rw [hsim]
                rw [hl] at hp
                cases hp
              | nil =>
                obtain ⟨ho, hm⟩ := means_of_similar h hd hsim
                cases hb : o.takes with
                | false =>
                  rw [hb] at hm
                  rcases partition_cases t with ⟨-, e⟩ | ⟨x, v, hx, e, e'⟩
                  · have hl : long t os = some (o.long, some (.bool true)) := by
                      unfold long
                      rw [hsim]
                      simp [hb, e, h.name ho]
                    rw [hl] at hp
                    simp only at hp
                    rw [known_same (by rw [hsim]; simp)] at hp
                    obtain ⟨r, hr, rfl⟩ := Option.map_eq_some_iff.1 hp
                    obtain ⟨opts, s1, s2⟩ := ih ts hk' r hr fun n hn' => hn n (by simp only [optsOf, List.map_cons]; exact List.mem_cons_of_mem _ hn')
                    rw [e] at hm
                    exact ⟨(o.long, none) :: opts, .switch hm s1, by simp [optsOf, s2, asItems, asArg]⟩
                  · exfalso
                    have hl : long t os = none := by
                      unfold long
                      rw [hsim]
                      simp [hb, e']
                    rw [hl] at hp
                    cases hp
                | true =>
                  rw [hb] at hm
                  rcases partition_cases t with ⟨-, e⟩ | ⟨x, v, hx, e, e'⟩
                  · have hl : long t os = some (o.long, none) := by
                      unfold long
                      rw [hsim]
                      simp [hb, e, h.name ho]
                    rw [hl] at hp
                    simp only at hp
                    cases ts with
                    | nil =>
                      rw [parseArgv] at hp
                      cases hp
                    | cons v ts =>
                      rw [parseArgv] at hp
                      split at hp
                      · cases hp
                      · rename_i hv
                        obtain ⟨r, hr, rfl⟩ := Option.map_eq_some_iff.1 hp
                        obtain ⟨opts, s1, s2⟩ := ih ts (by simp at hk'; omega) r hr fun n hn' => hn n (by simp only [optsOf, List.map_cons]; exact List.mem_cons_of_mem _ hn')
                        rw [e] at hm
                        push Not at hv
                        exact ⟨(o.long, some v) :: opts, .next hm hv.1 hv.2 s1, by simp [optsOf, s2, asItems, asArg]⟩
                  · have hl : long t os = some (o.long, some (.str v)) := by
                      unfold long
                      rw [hsim]
                      simp [hb, e', h.name ho]
                    rw [hl] at hp
                    simp only at hp
                    rw [known_same (by rw [hsim]; simp)] at hp
                    obtain ⟨r, hr, rfl⟩ := Option.map_eq_some_iff.1 hp
                    obtain ⟨opts, s1, s2⟩ := ih ts hk' r hr fun n hn' => hn n (by simp only [optsOf, List.map_cons]; exact List.mem_cons_of_mem _ hn')
                    rw [e'] at hm
                    rw [e]
                    exact ⟨(o.long, some v) :: opts, .equals hm s1, by simp [optsOf, s2, asItems, asArg]⟩
          · rw [if_neg n2] at hp
            by_cases n3 : t.head? = some '-' ∧ t ≠ "-".toList
            · exfalso
              rw [if_pos n3] at hp
              have hq : ∃ c u, t = '-' :: c :: u ∧ c ≠ '-' := by
                match t, n3, n2 with
                | [], n3, _ => simp at n3
                | [a], n3, _ =>
                  have : a = '-' := by simpa using n3.1
                  subst this
                  exact absurd (by decide +kernel) n3.2
                | a :: c :: u, n3, n2 =>
                  have : a = '-' := by simpa using n3.1
                  subst this
                  refine ⟨c, u, rfl, ?_⟩
                  rintro rfl
                  exact n2 (by rw [dashes_eq]; rfl)
              obtain ⟨c, u, rfl, hc⟩ := hq
              cases hf : os.filter (fun k => decide (k.short = ['-', c])) with
              | nil =>
                have hs : ∃ r w os', shorts (c :: u) os = none ∨ shorts (c :: u) os = some (Item.opt ['-', c] (.bool true) :: r, w, os') := by
                  rw [shorts, hf]
                  simp only
                  cases shorts u (os ++ [mkOpt ['-', c] [] false (.bool false)]) with
                  | none => exact ⟨[], none, [], .inl rfl⟩
                  | some r => exact ⟨r.1, r.2.1, r.2.2, .inr rfl⟩
                obtain ⟨r, w, os', hs | hs⟩ := hs
                · rw [List.tail_cons, hs] at hp
                  cases hp
                · rw [List.tail_cons, hs] at hp
                  simp only at hp
                  obtain ⟨r', -, rfl⟩ := Option.map_eq_some_iff.1 hp
                  obtain ⟨o, ho, e⟩ := List.mem_map.1 (hn ['-', c] (by simp [optsOf])).1
                  have := (h.dashes o ho).1
                  rw [e, dashes_eq] at this
                  simp only [List.cons_prefix_cons] at this
                  exact hc this.2.1.symm
              | cons o l =>
                have ho : o ∈ os ∧ o.short = ['-', c] := by
                  have : o ∈ os.filter (fun k => decide (k.short = ['-', c])) := by rw [hf]; simp
                  simpa using List.mem_filter.1 this
                have eo : o = helpOpt := h.short o ho.1 (by rw [ho.2]; simp)
                have hs : ∃ r w os', shorts (c :: u) os = none ∨ shorts (c :: u) os = some (Item.opt "--help".toList (.bool true) :: r, w, os') := by
                  rw [shorts, hf]
                  cases l with
                  | cons _ _ => exact ⟨[], none, [], .inl rfl⟩
                  | nil =>
                    simp only
                    rw [if_neg (by rw [eo]; decide), eo, show helpOpt.name = "--help".toList by decide +kernel]
                    cases shorts u os with
                    | none => exact ⟨[], none, [], .inl rfl⟩
                    | some r => exact ⟨r.1, r.2.1, r.2.2, .inr rfl⟩
                obtain ⟨r, w, os', hs | hs⟩ := hs
                · rw [List.tail_cons, hs] at hp
                  cases hp
                · rw [List.tail_cons, hs] at hp
                  simp only at hp
                  obtain ⟨r', -, rfl⟩ := Option.map_eq_some_iff.1 hp
                  exact (hn "--help".toList (by simp [optsOf])).2 rfl
            · rw [if_neg n3] at hp
              obtain ⟨r, hr, rfl⟩ := Option.map_eq_some_iff.1 hp
              obtain ⟨opts, s1, s2⟩ := ih ts hk' r hr fun n hn' => hn n (by simpa [optsOf] using hn')
              refine ⟨opts, .word ?_ s1, by simpa [optsOf] using s2⟩
              by_cases k : t.head? = some '-'
              · exact .inr (by by_contra k'; exact n3 ⟨k, k'⟩)
              · exact .inl k
  exact fun argv items => main argv.length argv le_rfl items

end City.Docopt
