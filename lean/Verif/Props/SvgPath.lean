import Verif.Proof.SvgPath
import Verif.Proof.Path
import Mathlib.Data.Rat.Encodable
/-! # Path data of SVG -/

namespace Patro.SvgPath

open Patro.Xml (Text)

variable {F : Type _}

/-! ## C60: the parser stops -/

/-- C60. For each sequence of letters and numbers where no number follows a close command, the parser stops, after at most one turn of
its loop for each item and one more, with a list of commands or an exception. -/
theorem parse_terminates_partial (parts : List (Tok F)) (h : ¬ NumberAfterClose parts) :
    ∃ r, ∀ fuel, parts.length < fuel → parse fuel parts = some r := by
  obtain ⟨r, hr⟩ := run_some h (parts.length + 1) State.init (inv_init parts) (by omega) (by omega)
  refine ⟨r, fun fuel hf => ?_⟩
  have := run_mono _ (fuel - (parts.length + 1)) _ _ hr
  rwa [show parts.length + 1 + (fuel - (parts.length + 1)) = fuel by omega] at this

/-- C60. When a number follows a close command the parser never stops. -/
theorem parse_hangs_wrong (parts : List (Tok F)) (h : NumberAfterClose parts) (fuel : Nat) : parse fuel parts = none := by
  obtain ⟨pre, c, x, rest, hp, hz, rfl⟩ := h
  have hc : codeArity c = some 0 := by rcases hz with rfl | rfl <;> rfl
  obtain ⟨k, s, hs, hi⟩ := complete_steps hp (Tok.letter c :: Tok.num x :: rest)
  have hb := block_steps c 0 hc pre [] [] (Tok.num x :: rest) rfl (by simp) s hi
  have hall : Steps (pre ++ Tok.letter c :: Tok.num x :: rest) (k + 1) State.init
      ⟨s.commands ++ [(c, [])], some (implicit c), some 0, (pre ++ [Tok.letter c]).length⟩ := hs.trans (by simpa using hb)
  cases hr : parse fuel (pre ++ Tok.letter c :: Tok.num x :: rest) with
  | none => rfl
  | some r =>
    exfalso
    have h1 := run_mono fuel (k + 1) _ _ hr
    rw [Nat.add_comm, run_steps hall, stuck _ x] at h1
    · cases h1
    · simp

/-- C60. The parser stops exactly when no number follows a close command. -/
theorem parse_terminates_iff (parts : List (Tok F)) : (∃ fuel r, parse fuel parts = some r) ↔ ¬ NumberAfterClose parts := by
  constructor
  · rintro ⟨fuel, r, hr⟩ h
    rw [parse_hangs_wrong parts h fuel] at hr
    cases hr
  · intro h
    obtain ⟨r, hr⟩ := parse_terminates_partial parts h
    exact ⟨parts.length + 1, r, hr _ (by omega)⟩

/-- `M 0 0 z 1`. -/
example (fuel : Nat) : parse fuel [.letter 'M', .num (0 : Int), .num 0, .letter 'z', .num 1] = none :=
  parse_hangs_wrong _ ⟨[.letter 'M', .num 0, .num 0], 'z', 1, [],
    .block [] 'M' 2 [.num 0, .num 0] [] .nil rfl rfl (by simp), .inl rfl, rfl⟩ fuel

/-- `M 0 0 L 1 2 3 4 z` and `M z 1`, where the letter is taken as an argument. -/
example : parse 20 [.letter 'M', .num (0 : Int), .num 0, .letter 'L', .num 1, .num 2, .num 3, .num 4, .letter 'z'] =
    some (.ok [('M', [.num 0, .num 0]), ('L', [.num 1, .num 2]), ('L', [.num 3, .num 4]), ('z', [])]) := by decide +kernel
example : parse 20 [.letter 'M', .letter 'z', .num (1 : Int)] = some (.ok [('M', [.letter 'z', .num 1])]) := by decide +kernel
example : parse 20 [.num (1 : Int), .letter 'z'] = some (.error .typeError) := by decide +kernel
example : parse 20 [.letter 'z', .letter 'b', .num (1 : Int)] = some (.error .valueError) := by decide +kernel

/-! ## C61: grouping of the arguments -/

theorem block_commands_steps (b : Block F) (hb : b.WellFormed) (ht : b.letter ≠ 'T' ∧ b.letter ≠ 't') (pre rest : List (Tok F))
    (s : State F) (hs : s.i = pre.length) :
    ∃ k s', Steps (pre ++ b.toks ++ rest) k s s' ∧ s'.i = (pre ++ b.toks).length ∧
      s'.commands = s.commands ++ b.commands.map Command.ofNums := by
  obtain ⟨n, hn, hne, hg, h0⟩ := hb
  have hc : codeArity b.letter = some n := by
    unfold codeArity
    rw [if_neg (by rintro (e | e); exacts [ht.1 e, ht.2 e]), hn]
  obtain ⟨letter, groups⟩ := b
  cases groups with
  | nil => exact absurd rfl hne
  | cons g gs =>
    have hgs : ∀ g' ∈ gs.map (List.map (Tok.num (F := F))), g'.length = n ∧ ∃ x t, g' = Tok.num x :: t := by
      intro g' hg'
      obtain ⟨g0, hm, rfl⟩ := List.mem_map.mp hg'
      have hl : g0.length = n := hg g0 (by simp [hm])
      refine ⟨by simpa using hl, ?_⟩
      cases g0 with
      | nil =>
        have : gs.length = 0 := by simpa using h0 (by simpa using hl.symm)
        rw [List.length_eq_zero_iff] at this
        rw [this] at hm
        simp at hm
      | cons x t => exact ⟨x, t.map Tok.num, rfl⟩
    have hfirst : (g.map (Tok.num (F := F))).length = n := by simpa using hg g (by simp)
    have h := block_steps letter n hc pre (g.map Tok.num) (gs.map (List.map Tok.num)) rest hfirst hgs s hs
    have e : Block.toks ⟨letter, g :: gs⟩ = Tok.letter letter :: g.map Tok.num ++ (gs.map (List.map Tok.num)).flatten := by
      simp [Block.toks, List.map_flatten]
    rw [e]
    refine ⟨_, _, h, rfl, ?_⟩
    simp [Block.commands, Command.ofNums, implicit, Function.comp_def]

theorem blocks_steps : ∀ (blocks : List (Block F)), (∀ b ∈ blocks, b.WellFormed ∧ b.letter ≠ 'T' ∧ b.letter ≠ 't') →
    ∀ (pre : List (Tok F)) (s : State F), s.i = pre.length →
    ∃ k s', Steps (pre ++ blocks.flatMap Block.toks) k s s' ∧ s'.i = (pre ++ blocks.flatMap Block.toks).length ∧
      s'.commands = s.commands ++ (blocks.flatMap Block.commands).map Command.ofNums
  | [], _, pre, s, hs => ⟨0, s, .zero _, by simpa using hs, by simp⟩
  | b :: blocks, h, pre, s, hs => by
    obtain ⟨k, s', h1, h2, h3⟩ := block_commands_steps b (h b (by simp)).1 (h b (by simp)).2 pre (blocks.flatMap Block.toks) s hs
    obtain ⟨k', s'', h4, h5, h6⟩ := blocks_steps blocks (fun b' hb' => h b' (by simp [hb'])) (pre ++ b.toks) s' h2
    have e : pre ++ (b :: blocks).flatMap Block.toks = pre ++ b.toks ++ blocks.flatMap Block.toks := by simp
    rw [e]
    exact ⟨k + k', s'', h1.trans h4, h5, by rw [h6, h3]; simp⟩

/-- C61. Well formed path data without smooth quadratic curves is parsed into the commands it stands for: repeated groups of arguments
are repeated commands, and line-to after a move-to. -/
theorem parse_blocks_partial (blocks : List (Block F)) (h : ∀ b ∈ blocks, b.WellFormed ∧ b.letter ≠ 'T' ∧ b.letter ≠ 't') :
    ∃ fuel, ∀ fuel', fuel ≤ fuel' →
      parse fuel' (blocks.flatMap Block.toks) = some (.ok ((blocks.flatMap Block.commands).map Command.ofNums)) := by
  obtain ⟨k, s, h1, h2, h3⟩ := blocks_steps blocks h [] State.init rfl
  refine ⟨k + 1, fun fuel' hf => ?_⟩
  have := run_steps h1 1
  rw [run_none s (by rw [h2]; simp), h3] at this
  have := run_mono _ (fuel' - (k + 1)) _ _ this
  rw [show k + 1 + (fuel' - (k + 1)) = fuel' by omega] at this
  simpa [parse, State.init] using this

/-- A move-to with two groups, a cubic curve, a close command. -/
def exampleBlocks : List (Block Int) := [⟨'m', [[1, 2], [3, 4]]⟩, ⟨'C', [[1, 2, 3, 4, 5, 6]]⟩, ⟨'h', [[7], [8]]⟩, ⟨'z', [[]]⟩]

example : ∀ b ∈ exampleBlocks, b.WellFormed ∧ b.letter ≠ 'T' ∧ b.letter ≠ 't' := by
  intro b hb
  simp only [exampleBlocks, List.mem_cons, List.not_mem_nil, or_false] at hb
  rcases hb with rfl | rfl | rfl | rfl
  · exact ⟨⟨2, rfl, by simp, by simp, by simp⟩, by decide⟩
  · exact ⟨⟨6, rfl, by simp, by simp, by simp⟩, by decide⟩
  · exact ⟨⟨1, rfl, by simp, by simp, by simp⟩, by decide⟩
  · exact ⟨⟨0, rfl, by simp, by simp, by simp⟩, by decide⟩

example : exampleBlocks.flatMap Block.commands =
    [('m', [1, 2]), ('l', [3, 4]), ('C', [1, 2, 3, 4, 5, 6]), ('h', [7]), ('h', [8]), ('z', [])] := by decide

theorem run_prefix (parts : List (Tok F)) (fuel : Nat) (s : State F) (commands : List (Command F)) (h : run parts fuel s = some (.ok commands)) :
    s.commands <+: commands := by
  induction fuel generalizing s with
  | zero => cases h
  | succ fuel ih =>
    unfold run at h
    split at h
    · simp only [Option.some.injEq, Except.ok.injEq] at h
      rw [h]
    · split at h
      · cases h
      · rename_i part _ s' hs
        have hp : s.commands <+: s'.commands := by
          have he : ∀ s₀ : State F, s₀.commands = s.commands → emit parts s₀ = .ok s' → s.commands <+: s'.commands := by
            intro s₀ h0 h1
            unfold emit at h1
            split at h1
            · cases h1
              rw [← h0]
              exact List.prefix_append _ _
            · cases h1
          unfold step at hs
          split at hs
          · split at hs
            · cases hs
            · exact he _ (by rfl) hs
          · exact he _ rfl hs
        exact hp.trans (ih s' h)

/-- C61. A smooth quadratic curve takes two arguments, the parser gives it three: whatever follows the two numbers is swallowed, the letter of
the next command for instance. -/
theorem smooth_quadratic_wrong (c : Char) (hc : c = 'T' ∨ c = 't') (x y : F) (t : Tok F) (rest : List (Tok F)) (fuel : Nat)
    (commands : List (Command F)) (h : parse fuel (.letter c :: .num x :: .num y :: t :: rest) = some (.ok commands)) :
    commands.head? = some (c, [.num x, .num y, t]) := by
  unfold parse at h
  cases fuel with
  | zero => cases h
  | succ fuel =>
    have hs : step (.letter c :: .num x :: .num y :: t :: rest) State.init (.letter c) =
        .ok ⟨[(c, [.num x, .num y, t])], some c, some 3, 4⟩ := by
      rcases hc with rfl | rfl <;> rfl
    unfold run at h
    rw [show (Tok.letter c :: .num x :: .num y :: t :: rest)[(State.init : State F).i]? = some (.letter c) from rfl] at h
    dsimp only at h
    rw [hs] at h
    obtain ⟨l, rfl⟩ := run_prefix _ _ _ _ h
    rfl

/-- `T 1 2 L 3 4`. -/
example : (Block.mk 'T' [[(1 : Int), 2]]).WellFormed ∧ (Block.mk 'L' [[(3 : Int), 4]]).WellFormed ∧
    parse 10 ((Block.mk 'T' [[(1 : Int), 2]]).toks ++ (Block.mk 'L' [[3, 4]]).toks) =
      some (.ok [('T', [.num 1, .num 2, .letter 'L']), ('T', [.num 3, .num 4])]) :=
  ⟨⟨2, rfl, by simp, by simp, by simp⟩, ⟨2, rfl, by simp, by simp, by simp⟩, by decide +kernel⟩

/-! ### Writing and reading again -/

theorem join_append (c : Char) (ws vs : List Text) (hw : ws ≠ []) (hv : vs ≠ []) :
    Xml.join c (ws ++ vs) = Xml.join c ws ++ c :: Xml.join c vs := by
  induction ws with
  | nil => exact absurd rfl hw
  | cons w ws ih =>
    cases ws with
    | nil =>
      cases vs with
      | nil => exact absurd rfl hv
      | cons v vs => simp [Xml.join]
    | cons w' ws =>
      have := ih (by simp)
      simp only [List.cons_append] at this ⊢
      have e : ∀ (v : Text) (l : List Text), Xml.join c (w :: v :: l) = w ++ c :: Xml.join c (v :: l) := fun _ _ => rfl
      rw [e, e, this]
      simp

/-- The words of a command. -/
def words (print : F → Text) (c : Char × List F) : List Text := [c.1] :: c.2.map print

theorem join_ne_nil (c : Char) (ws : List Text) (h : ∃ w, ws.head? = some w ∧ w ≠ []) : Xml.join c ws ≠ [] := by
  obtain ⟨w, hw, hne⟩ := h
  cases ws with
  | nil => simp at hw
  | cons w' ws =>
    simp only [List.head?_cons, Option.some.injEq] at hw
    subst hw
    cases ws <;> simp [Xml.join, hne]

theorem toXml_foldl (print : F → Text) : ∀ (cmds done : List (Char × List F)),
    cmds.foldl (init := Xml.join ' ' (done.flatMap (words print))) (fun pathData command =>
      (if pathData = [] then [] else pathData ++ [' ']) ++ Xml.join ' ' ([command.1] :: command.2.map print)) =
    Xml.join ' ' ((done ++ cmds).flatMap (words print))
  | [], done => by simp
  | c :: cmds, done => by
    have ih := toXml_foldl print cmds (done ++ [c])
    rw [List.foldl_cons]
    have e : (if Xml.join ' ' (done.flatMap (words print)) = [] then [] else Xml.join ' ' (done.flatMap (words print)) ++ [' ']) ++
        Xml.join ' ' ([c.1] :: c.2.map print) = Xml.join ' ' ((done ++ [c]).flatMap (words print)) := by
      cases done with
      | nil => simp [Xml.join, words]
      | cons d done =>
        rw [if_neg (join_ne_nil _ _ ⟨[d.1], by simp [words], by simp⟩), List.flatMap_append,
          join_append _ _ _ (by simp [words]) (by simp [words])]
        simp [words]
    rw [e, ih]
    simp

theorem toXml_eq (print : F → Text) (cmds : List (Char × List F)) : toXml print cmds = Xml.join ' ' (cmds.flatMap (words print)) := by
  have := toXml_foldl print cmds []
  simpa [toXml, Xml.join] using this

/-- What is needed of `str` and `float` of Python: the text of a number has no separator, is not a letter, and is read back as the same
number. -/
structure Codec (print : F → Text) (float : Text → Option F) : Prop where
  ne_nil : ∀ x, print x ≠ []
  sep : ∀ x, ' ' ∉ print x ∧ ',' ∉ print x
  letter : ∀ x c, print x = [c] → c.isAlpha = false
  read : ∀ x, float (print x) = some x

theorem tok_print {print : F → Text} {float : Text → Option F} (h : Codec print float) (x : F) : tok float (print x) = .ok (.num x) := by
  have h1 := h.letter x
  have h2 := h.read x
  revert h1 h2
  generalize print x = t
  intro h1 h2
  unfold tok
  split
  · rename_i c
    rw [if_neg (by rw [h1 c rfl]; decide), h2]
  · rw [h2]

theorem arity_alpha (c : Char) (h : arity c ≠ none) : c.isAlpha = true ∧ c ≠ ' ' ∧ c ≠ ',' := by
  unfold arity at h
  split at h <;> first | decide | exact absurd rfl h

theorem mapM_words {print : F → Text} {float : Text → Option F} (hc : Codec print float) :
    ∀ (cmds : List (Char × List F)), (∀ c ∈ cmds, arity c.1 ≠ none) →
    (cmds.flatMap (words print)).mapM (tok float) = .ok (cmds.flatMap fun c => Tok.letter c.1 :: c.2.map Tok.num)
  | [], _ => rfl
  | c :: cmds, h => by
    have ih := mapM_words hc cmds (fun c' hc' => h c' (by simp [hc']))
    have e1 : (c.2.map print).mapM (tok float) = .ok (c.2.map Tok.num) := by
      induction c.2 with
      | nil => rfl
      | cons x t ih => simp [List.mapM_cons, tok_print hc, ih]; rfl
    have e2 : tok float [c.1] = .ok (.letter c.1) := by
      simp [tok, (arity_alpha c.1 (h c (by simp))).1]
    rw [List.flatMap_cons, List.flatMap_cons, words, List.cons_append, List.mapM_cons, e2, List.mapM_append, e1, ih]
    rfl

theorem toks_toXml {print : F → Text} {float : Text → Option F} (hc : Codec print float) (cmds : List (Char × List F))
    (h : ∀ c ∈ cmds, arity c.1 ≠ none) :
    toks float (toXml print cmds) = .ok (cmds.flatMap fun c => Tok.letter c.1 :: c.2.map Tok.num) := by
  have hw : ∀ w ∈ cmds.flatMap (words print), w ≠ [] ∧ ' ' ∉ w ∧ ',' ∉ w := by
    intro w hw
    obtain ⟨c, hm, hw⟩ := List.mem_flatMap.mp hw
    simp only [words, List.mem_cons, List.mem_map] at hw
    have ha := arity_alpha c.1 (h c hm)
    rcases hw with rfl | ⟨x, _, rfl⟩
    · simp [ha.2.1.symm, ha.2.2.symm]
    · exact ⟨hc.ne_nil x, hc.sep x⟩
  have h1 : ∀ t : Text, ',' ∉ t → t.map (fun c => if c = ',' then ' ' else c) = t := by
    intro t ht
    induction t with
    | nil => rfl
    | cons x t ih =>
      simp only [List.mem_cons, not_or] at ht
      rw [List.map_cons, ih ht.2, if_neg (fun e => ht.1 e.symm)]
  unfold toks
  rw [toXml_eq, h1 _ (Xml.join_no_char ' ' ',' _ (by decide) fun w h' => (hw w h').2.2), splitSpaceList]
  by_cases hne : cmds.flatMap (words print) = []
  · rw [hne]
    have : cmds = [] := by
      cases cmds with
      | nil => rfl
      | cons c cs => simp [words] at hne
    rw [this]
    rfl
  · rw [Xml.split_join ' ' _ hne fun w h' => (hw w h').2.1, List.filter_eq_self.mpr fun w h' => by simpa using (hw w h').1]
    exact mapM_words hc cmds h

/-- C61. Commands, without smooth quadratic curves, which are written and read again are the same. -/
theorem write_read_partial {print : F → Text} {float : Text → Option F} (hc : Codec print float) (cmds : List (Char × List F))
    (h : ∀ c ∈ cmds, arity c.1 = some c.2.length ∧ c.1 ≠ 'T' ∧ c.1 ≠ 't') :
    ∃ parts fuel, toks float (toXml print cmds) = .ok parts ∧
      ∀ fuel', fuel ≤ fuel' → parse fuel' parts = some (.ok (cmds.map Command.ofNums)) := by
  have h1 := toks_toXml hc cmds (fun c hm => by rw [(h c hm).1]; simp)
  obtain ⟨fuel, hf⟩ := parse_blocks_partial (cmds.map fun c => ⟨c.1, [c.2]⟩) (by
    intro b hb
    obtain ⟨c, hm, rfl⟩ := List.mem_map.mp hb
    exact ⟨⟨c.2.length, (h c hm).1, by simp, by simp, by simp⟩, (h c hm).2⟩)
  refine ⟨_, fuel, h1, fun fuel' hf' => ?_⟩
  have := hf fuel' hf'
  simpa [List.flatMap_map, Block.toks, Block.commands, List.flatMap_singleton] using this

/-- A codec, for the rational numbers for instance: the code of the number written in unary. -/
theorem codec_exists (F : Type _) [Encodable F] : Codec (fun x : F => List.replicate (Encodable.encode x + 1) '1')
    (fun t => if t ≠ [] ∧ ∀ c ∈ t, c = '1' then Encodable.decode (t.length - 1) else none) where
  ne_nil x := by simp [List.replicate_succ]
  sep x := by simp
  letter x c e := by
    have : c ∈ List.replicate (Encodable.encode x + 1) '1' := by rw [e]; simp
    rw [List.eq_of_mem_replicate this]
    decide
  read x := by
    rw [if_pos ⟨by simp [List.replicate_succ], fun c hm => List.eq_of_mem_replicate hm⟩]
    simp

example := codec_exists ℚ

example : toXml (fun n : Nat => List.replicate (n + 1) '1') [('M', [0, 1]), ('z', [])] = "M 1 11 z".toList := by decide

/-- C61. A path which has been read cannot be written: the value of the attribute is not a list of commands any more. -/
theorem read_write_wrong {K : Type _} [Field K] [LinearOrder K] (path : Path.Path K) (h : path.parts ≠ []) :
    pathToXml path = .error .typeError := by
  simp [pathToXml, h]

/-- C61. Path data where the first letter is followed by a number without a space, as in `M10 20`, is rejected, whatever comes next. -/
theorem compact_wrong (float : Text → Option F) (hfloat : ∀ c t, arity c ≠ none → float (c :: t) = none) (c d : Char) (rest : Text)
    (hc : arity c ≠ none) (hd : d ≠ ' ' ∧ d ≠ ',') : toks float (c :: d :: rest) = .error .valueError := by
  obtain ⟨_, h1, h2⟩ := arity_alpha c hc
  have hs : ∃ w ws, splitSpaceList ((c :: d :: rest).map fun c => if c = ',' then ' ' else c) = (c :: d :: w) :: ws := by
    rw [List.map_cons, List.map_cons, if_neg h2, if_neg hd.2]
    unfold splitSpaceList
    rw [Xml.split, if_neg h1, Xml.split, if_neg hd.1]
    cases Xml.split ' ' (rest.map fun c => if c = ',' then ' ' else c) with
    | nil => exact ⟨[], [], by simp⟩
    | cons w ws => exact ⟨w, ws.filter (· ≠ []), by simp⟩
  obtain ⟨w, ws, hs⟩ := hs
  unfold toks
  rw [hs, List.mapM_cons]
  simp only [tok, hfloat c (d :: w) hc]
  rfl

example : toks (fun t => if t = "10".toList then some (10 : Int) else none) "M10 10".toList = .error .valueError ∧
    toks (fun t => if t = "10".toList then some (10 : Int) else none) "M 10,10".toList = .ok [.letter 'M', .num 10, .num 10] := by
  decide

/-! ## C110: the curve of a path -/

section Geometry

variable {K : Type _} [Field K] [LinearOrder K]

open Patro.Path (Path)

/-- The commands which are read properly after the first one. -/
def supported : List Char := ['L', 'l', 'H', 'h', 'v', 'C', 'c', 'Q', 'q', 'A', 'a']

theorem added_addPart (path : Path K) (part : Path.Part K) (hc : path.closed = false) (hr : part.radius = none) :
    added (path.addPart part) = .ok { path with parts := path.parts ++ [part] } := by
  simp [Path.Path.addPart, hc, hr, added]

theorem length_one (l : List K) (h : l.length = 1) : ∃ a, l = [a] := List.length_eq_one_iff.mp h
theorem length_two (l : List K) (h : l.length = 2) : ∃ a b, l = [a, b] := List.length_eq_two.mp h
theorem length_four (l : List K) (h : l.length = 4) : ∃ a b c d, l = [a, b, c, d] := by
  match l, h with
  | [a, b, c, d], _ => exact ⟨a, b, c, d, rfl⟩
theorem length_six (l : List K) (h : l.length = 6) : ∃ a b c d e f, l = [a, b, c, d, e, f] := by
  match l, h with
  | [a, b, c, d, e, f], _ => exact ⟨a, b, c, d, e, f, rfl⟩
theorem length_seven (l : List K) (h : l.length = 7) : ∃ a b c d e f g, l = [a, b, c, d, e, f, g] := by
  match l, h with
  | [a, b, c, d, e, f, g], _ => exact ⟨a, b, c, d, e, f, g, rfl⟩

theorem extend_draw (path : Path K) (hc : path.closed = false) (pen : Pen K) (c : Char) (args : List K) (hm : c ∈ supported)
    (ha : arity c = some args.length) : ∃ part piece pen', extend path c args = .ok { path with parts := path.parts ++ [part] } ∧
      partPiece pen.cur part = some (piece, pen'.cur) ∧ pen.draw c args = some ([piece], pen') ∧ pen'.start = pen.start := by
  simp only [supported, List.mem_cons, List.not_mem_nil, or_false] at hm
  rcases hm with rfl | rfl | rfl | rfl | rfl | rfl | rfl | rfl | rfl | rfl | rfl
  · obtain ⟨x, y, rfl⟩ := length_two args (by simpa [arity] using ha.symm)
    exact ⟨.line ⟨x, y⟩ true none false false, .curve [pen.cur, ⟨x, y⟩], pen.goto ⟨x, y⟩, added_addPart path _ hc rfl, rfl, rfl, rfl⟩
  · obtain ⟨x, y, rfl⟩ := length_two args (by simpa [arity] using ha.symm)
    exact ⟨.line ⟨x, y⟩ false none false false, .curve [pen.cur, pen.cur + ⟨x, y⟩], pen.goto (pen.cur + ⟨x, y⟩),
      added_addPart path _ hc rfl, rfl, rfl, rfl⟩
  · obtain ⟨x, rfl⟩ := length_one args (by simpa [arity] using ha.symm)
    exact ⟨.absH x none false, .curve [pen.cur, ⟨x, pen.cur.y⟩], pen.goto ⟨x, pen.cur.y⟩, added_addPart path _ hc rfl, rfl, rfl, rfl⟩
  · obtain ⟨x, rfl⟩ := length_one args (by simpa [arity] using ha.symm)
    have e : pen.cur + Vec.smul ⟨1, 0⟩ x = ⟨pen.cur.x + x, pen.cur.y⟩ := by ext <;> simp [Vec.smul]
    refine ⟨.dir ⟨1, 0⟩ x none false, .curve [pen.cur, ⟨pen.cur.x + x, pen.cur.y⟩], pen.goto ⟨pen.cur.x + x, pen.cur.y⟩,
      added_addPart path _ hc rfl, ?_, rfl, rfl⟩
    simp [partPiece, Path.draw, e, Pen.goto]
  · obtain ⟨y, rfl⟩ := length_one args (by simpa [arity] using ha.symm)
    have e : pen.cur + Vec.smul ⟨0, 1⟩ y = ⟨pen.cur.x, pen.cur.y + y⟩ := by ext <;> simp [Vec.smul]
    refine ⟨.dir ⟨0, 1⟩ y none false, .curve [pen.cur, ⟨pen.cur.x, pen.cur.y + y⟩], pen.goto ⟨pen.cur.x, pen.cur.y + y⟩,
      added_addPart path _ hc rfl, ?_, rfl, rfl⟩
    simp [partPiece, Path.draw, e, Pen.goto]
  · obtain ⟨x1, y1, x2, y2, x, y, rfl⟩ := length_six args (by simpa [arity] using ha.symm)
    refine ⟨.cubic ⟨x1, y1⟩ ⟨x2, y2⟩ ⟨x, y⟩ true, .curve [pen.cur, ⟨x1, y1⟩, ⟨x2, y2⟩, ⟨x, y⟩], ⟨⟨x, y⟩, pen.start, some ⟨x2, y2⟩, none⟩,
      ?_, rfl, rfl, rfl⟩
    rw [← added_addPart path _ hc rfl]
    simp [extend, asVector, pairs, bind, Except.bind, Path.Path.cubicTo, Path.Path.quadraticTo]
  · obtain ⟨x1, y1, x2, y2, x, y, rfl⟩ := length_six args (by simpa [arity] using ha.symm)
    refine ⟨.cubic ⟨x1, y1⟩ ⟨x2, y2⟩ ⟨x, y⟩ false,
      .curve [pen.cur, pen.cur + ⟨x1, y1⟩, pen.cur + ⟨x2, y2⟩, pen.cur + ⟨x, y⟩],
      ⟨pen.cur + ⟨x, y⟩, pen.start, some (pen.cur + ⟨x2, y2⟩), none⟩, ?_, rfl, rfl, rfl⟩
    rw [← added_addPart path _ hc rfl]
    simp [extend, asVector, pairs, bind, Except.bind, Path.Path.cubicTo, Path.Path.quadraticTo]
  · obtain ⟨x1, y1, x, y, rfl⟩ := length_four args (by simpa [arity] using ha.symm)
    refine ⟨.quad ⟨x1, y1⟩ ⟨x, y⟩ true, .curve [pen.cur, ⟨x1, y1⟩, ⟨x, y⟩], ⟨⟨x, y⟩, pen.start, none, some ⟨x1, y1⟩⟩,
      ?_, rfl, rfl, rfl⟩
    rw [← added_addPart path _ hc rfl]
    simp [extend, asVector, pairs, bind, Except.bind, Path.Path.cubicTo, Path.Path.quadraticTo]
  · obtain ⟨x1, y1, x, y, rfl⟩ := length_four args (by simpa [arity] using ha.symm)
    refine ⟨.quad ⟨x1, y1⟩ ⟨x, y⟩ false, .curve [pen.cur, pen.cur + ⟨x1, y1⟩, pen.cur + ⟨x, y⟩],
      ⟨pen.cur + ⟨x, y⟩, pen.start, none, some (pen.cur + ⟨x1, y1⟩)⟩, ?_, rfl, rfl, rfl⟩
    rw [← added_addPart path _ hc rfl]
    simp [extend, asVector, pairs, bind, Except.bind, Path.Path.cubicTo, Path.Path.quadraticTo]
  · obtain ⟨rx, ry, a, l, s, x, y, rfl⟩ := length_seven args (by simpa [arity] using ha.symm)
    exact ⟨.arc ⟨x, y⟩ rx ry a (l ≠ 0) (s ≠ 0) true, .arc pen.cur ⟨x, y⟩ rx ry a (l ≠ 0) (s ≠ 0), pen.goto ⟨x, y⟩,
      added_addPart path _ hc rfl, rfl, rfl, rfl⟩
  · obtain ⟨rx, ry, a, l, s, x, y, rfl⟩ := length_seven args (by simpa [arity] using ha.symm)
    exact ⟨.arc ⟨x, y⟩ rx ry a (l ≠ 0) (s ≠ 0) false, .arc pen.cur (pen.cur + ⟨x, y⟩) rx ry a (l ≠ 0) (s ≠ 0),
      pen.goto (pen.cur + ⟨x, y⟩), added_addPart path _ hc rfl, rfl, rfl, rfl⟩

theorem partsCurve_append (part : Path.Part K) (piece : Piece K) (stop : Vec K) : ∀ (parts : List (Path.Part K)) (start cur : Vec K)
    (pieces : List (Piece K)), partsCurve start parts = some pieces → Path.final start parts = some cur →
    partPiece cur part = some (piece, stop) →
    partsCurve start (parts ++ [part]) = some (pieces ++ [piece]) ∧ Path.final start (parts ++ [part]) = some stop
  | [], start, cur, pieces, h1, h2, h3 => by
    simp only [partsCurve, Option.some.injEq] at h1
    simp only [Path.final, Option.some.injEq] at h2
    subst h1 h2
    have h4 : Path.final start [part] = some stop := by
      unfold partPiece at h3
      simp only [Path.final]
      cases hd : Path.draw start part with
      | none => rw [hd] at h3; simp at h3
      | some points =>
        rw [hd] at h3
        cases part <;> simp_all
    refine ⟨?_, h4⟩
    simp [partsCurve, h3]
  | p :: parts, start, cur, pieces, h1, h2, h3 => by
    simp only [partsCurve, Option.bind_eq_bind, Option.bind_eq_some_iff] at h1
    obtain ⟨⟨piece0, stop0⟩, hp, rest, hr, he⟩ := h1
    simp only [Option.pure_def, Option.some.injEq] at he
    have hf : Path.final stop0 parts = some cur := by
      unfold partPiece at hp
      simp only [Path.final] at h2
      cases hd : Path.draw start p with
      | none => rw [hd] at hp; simp at hp
      | some points =>
        rw [hd] at hp h2
        have : points.getLastD start = stop0 := by cases p <;> simp_all
        rw [← this]
        exact h2
    obtain ⟨i1, i2⟩ := partsCurve_append part piece stop parts stop0 cur rest hr hf h3
    constructor
    · simp only [List.cons_append, partsCurve, hp, Option.bind_eq_bind, Option.bind_some, i1, Option.pure_def]
      rw [← he]; rfl
    · simp only [List.cons_append, Path.final]
      unfold partPiece at hp
      cases hd : Path.draw start p with
      | none => rw [hd] at hp; simp at hp
      | some points =>
        rw [hd] at hp
        have : points.getLastD start = stop0 := by cases p <;> simp_all
        simp only [Option.bind_eq_bind, Option.bind_some, this]
        exact i2

theorem body_geometry : ∀ (body : List (Char × List K)) (path : Path K) (pen : Pen K) (pieces : List (Piece K)),
    (∀ c ∈ body, c.1 ∈ supported ∧ arity c.1 = some c.2.length) → path.closed = false → partsCurve path.p0 path.parts = some pieces →
    Path.final path.p0 path.parts = some pen.cur → pen.start = path.p0 →
    ∃ (path' : Path K) (pen' : Pen K) (more : List (Piece K)), body.foldlM geometryStep (some path) = .ok (some path') ∧ path'.closed = false ∧ path'.p0 = path.p0 ∧
      (∀ tail, pen.drawAll (body ++ tail) = (pen'.drawAll tail).map (more ++ ·)) ∧
      partsCurve path'.p0 path'.parts = some (pieces ++ more) ∧ Path.final path'.p0 path'.parts = some pen'.cur ∧ pen'.start = path'.p0
  | [], path, pen, pieces, _, hc, h1, h2, h3 =>
    ⟨path, pen, [], rfl, hc, rfl, by intro tail; simp, by simpa using h1, h2, h3⟩
  | c :: body, path, pen, pieces, h, hc, h1, h2, h3 => by
    obtain ⟨part, piece, pen1, e1, e2, e3, e4⟩ := extend_draw path hc pen c.1 c.2 (h c (by simp)).1 (h c (by simp)).2
    obtain ⟨a1, a2⟩ := partsCurve_append part piece pen1.cur path.parts path.p0 pen.cur pieces h1 h2 e2
    obtain ⟨path', pen', more, b1, b2, b3, b4, b5, b6, b7⟩ := body_geometry body { path with parts := path.parts ++ [part] } pen1
      (pieces ++ [piece]) (fun c' hc' => h c' (by simp [hc'])) hc a1 a2 (by rw [e4, h3])
    refine ⟨path', pen', piece :: more, ?_, b2, b3, ?_, by simpa using b5, b6, b7⟩
    · rw [List.foldlM_cons]
      simp only [geometryStep, e1, bind, Except.bind, pure, Except.pure]
      exact b1
    · intro tail
      simp only [List.cons_append, Pen.drawAll, e3, Option.bind_eq_bind, Option.bind_some, b4, Option.pure_def]
      cases pen'.drawAll tail <;> simp

/-- C110. Path data made of a move-to, then of commands other than move-to, vertical absolute line-to and smooth curves, then possibly of
a close command, is read as the path of the curve which SVG defines. -/
theorem geometry_partial (c : Char) (x y : K) (body tail : List (Char × List K)) (hc : c = 'm' ∨ c = 'M')
    (hb : ∀ b ∈ body, b.1 ∈ supported ∧ arity b.1 = some b.2.length) (ht : tail = [] ∨ tail = [('z', [])] ∨ tail = [('Z', [])]) :
    ∃ path pieces, toGeometry ((c, [x, y]) :: body ++ tail) = .ok (some path) ∧
      svgCurve ((c, [x, y]) :: body ++ tail) = some pieces ∧ pathCurve path = some pieces ∧ (path.closed = true ↔ tail ≠ []) := by
  obtain ⟨path, pen, more, b1, b2, b3, b4, b5, b6, b7⟩ := body_geometry body (Path.Path.new (⟨x, y⟩ : Vec K)) ⟨⟨x, y⟩, ⟨x, y⟩, none, none⟩ [] hb
    rfl rfl rfl rfl
  have hstart : geometryStep (none : Option (Path K)) (c, [x, y]) = .ok (some (Path.Path.new ⟨x, y⟩)) := by
    rcases hc with rfl | rfl <;> rfl
  have h1 : toGeometry ((c, [x, y]) :: body ++ tail) = tail.foldlM geometryStep (some path) := by
    unfold toGeometry
    rw [List.cons_append, List.foldlM_cons, hstart]
    simp only [bind, Except.bind]
    rw [List.foldlM_append, b1]
    rfl
  have h2 : svgCurve ((c, [x, y]) :: body ++ tail) = (pen.drawAll tail).map (more ++ ·) := by
    rw [List.cons_append, svgCurve, if_pos hc, b4]
  have hz : tail = [] ∨ ∃ c, (c = 'z' ∨ c = 'Z') ∧ tail = [(c, [])] := by
    rcases ht with h | h | h
    · exact .inl h
    · exact .inr ⟨_, .inl rfl, h⟩
    · exact .inr ⟨_, .inr rfl, h⟩
  rcases hz with rfl | ⟨z, hz, rfl⟩
  · refine ⟨path, more, by rw [h1]; rfl, by rw [h2]; simp [Pen.drawAll], by simpa [pathCurve] using b5, by simp [b2]⟩
  · obtain ⟨a1, -⟩ := partsCurve_append (.line path.p0 true none false false) (.curve [pen.cur, path.p0]) path.p0 path.parts path.p0
      pen.cur more (by simpa using b5) b6 rfl
    have e : extend path z [] = .ok { path with parts := path.parts ++ [.line path.p0 true none false false], closed := true } := by
      rcases hz with rfl | rfl <;>
      simp [extend, Path.Path.close, Path.Path.addPart, b2, Path.setRadius, Path.Part.radius, added]
    have d : pen.draw z [] = some ([.curve [pen.cur, pen.start]], pen.goto pen.start) := by rcases hz with rfl | rfl <;> rfl
    refine ⟨{ path with parts := path.parts ++ [.line path.p0 true none false false], closed := true },
      more ++ [Piece.curve [pen.cur, path.p0]], ?_, ?_, a1, by simp⟩
    · rw [h1, List.foldlM_cons]
      simp only [geometryStep, e, bind, Except.bind, pure, Except.pure, List.foldlM_nil]
    · rw [h2]
      simp [Pen.drawAll, d, b7]

/-- The curve of `M 1 2 H 5 c 1 1 2 1 3 0 z`. -/
example : ∀ b ∈ [('H', [(5 : ℚ)]), ('c', [1, 1, 2, 1, 3, 0])], b.1 ∈ supported ∧ arity b.1 = some b.2.length := by decide +kernel

theorem nums_ofNums (cmds : List (Char × List K)) : (cmds.map Command.ofNums).mapM nums? = some cmds := by
  have h1 : ∀ args : List K, (args.map Tok.num).mapM Tok.num? = some args := by
    intro args
    induction args with
    | nil => rfl
    | cons x t ih => simp [List.mapM_cons, Tok.num?, ih]
  induction cmds with
  | nil => rfl
  | cons c cmds ih => simp [List.mapM_cons, nums?, Command.ofNums, h1, ih]

/-- C110. Path data which do not begin with a move-to are refused, whatever follows, as SVG requires, but with a name error. -/
theorem first_move (c : Char) (args : List K) (rest : List (Char × List K)) (hc : c ≠ 'm' ∧ c ≠ 'M') :
    svgCurve ((c, args) :: rest) = none ∧ (c.toLower ≠ 'm' → toGeometry ((c, args) :: rest) = .error .nameError) := by
  refine ⟨?_, fun h => ?_⟩
  · unfold svgCurve
    split
    · rename_i c' x y cmds heq
      simp only [List.cons.injEq, Prod.mk.injEq] at heq
      obtain ⟨⟨rfl, -⟩, -⟩ := heq
      rw [if_neg (by rintro (h | h); exacts [hc.1 h, hc.2 h])]
    · rfl
  · unfold toGeometry
    rw [List.foldlM_cons]
    simp [geometryStep, h, bind, Except.bind]

example : toGeometry [('L', [(1 : ℚ), 2]), ('M', [0, 0])] = .error .nameError := (first_move _ _ _ (by decide)).2 (by decide)

/-- C110. The same from the text of the attribute, written with spaces. -/
theorem read_text_partial {print : K → Text} {float : Text → Option K} (hcodec : Codec print float) (c : Char) (x y : K)
    (body tail : List (Char × List K)) (hc : c = 'm' ∨ c = 'M') (hb : ∀ b ∈ body, b.1 ∈ supported ∧ arity b.1 = some b.2.length)
    (ht : tail = [] ∨ tail = [('z', [])] ∨ tail = [('Z', [])]) :
    ∃ fuel path pieces, (∀ fuel', fuel ≤ fuel' → fromXml float fuel' (toXml print ((c, [x, y]) :: body ++ tail)) = some (.ok (some path))) ∧
      svgCurve ((c, [x, y]) :: body ++ tail) = some pieces ∧ pathCurve path = some pieces := by
  obtain ⟨path, pieces, h1, h2, h3, -⟩ := geometry_partial c x y body tail hc hb ht
  have hsup : ∀ c ∈ supported, c ≠ 'T' ∧ c ≠ 't' := by decide
  obtain ⟨parts, fuel, h4, h5⟩ := write_read_partial hcodec ((c, [x, y]) :: body ++ tail) (by
    intro b hm
    simp only [List.cons_append, List.mem_cons, List.mem_append] at hm
    rcases hm with rfl | hm | hm
    · rcases hc with rfl | rfl <;> exact ⟨rfl, by simp, by simp⟩
    · exact ⟨(hb b hm).2, hsup _ (hb b hm).1⟩
    · rcases ht with rfl | rfl | rfl
      · simp at hm
      · rw [List.mem_singleton.mp hm]; exact ⟨rfl, by simp, by simp⟩
      · rw [List.mem_singleton.mp hm]; exact ⟨rfl, by simp, by simp⟩)
  refine ⟨fuel, path, pieces, fun fuel' hf => ?_, h2, h3⟩
  unfold fromXml
  rw [h4]
  simp only [h5 fuel' hf, nums_ofNums, h1]

/-- C110. An absolute vertical line-to goes to the abscissa zero, whatever the current point. -/
theorem vertical_wrong (commands : List (Char × List K)) (path : Path K) (h : toGeometry commands = .ok (some path))
    (hc : path.closed = false) (y : K) :
    toGeometry (commands ++ [('V', [y])]) = .ok (some { path with parts := path.parts ++ [.line ⟨0, y⟩ true none false false] }) := by
  unfold toGeometry at h ⊢
  rw [List.foldlM_append, h]
  have : extend path 'V' [y] = .ok { path with parts := path.parts ++ [.line ⟨0, y⟩ true none false false] } := by
    simp [extend, added, Path.Path.verticalTo, Path.Path.addPart, hc, Path.setRadius, Path.Part.radius]
  simp [geometryStep, this, bind, Except.bind, pure, Except.pure]

/-- `M 1 2 V 5` is drawn to `(0, 5)` and not to `(1, 5)`. -/
example : ∃ path : Path ℚ, toGeometry [('M', [1, 2])] = .ok (some path) ∧ path.closed = false ∧
    pathCurve { path with parts := path.parts ++ [.line ⟨0, 5⟩ true none false false] } = some [.curve [⟨1, 2⟩, ⟨0, 5⟩]] ∧
    svgCurve [('M', [(1 : ℚ), 2]), ('V', [5])] = some [.curve [⟨1, 2⟩, ⟨1, 5⟩]] :=
  ⟨⟨⟨1, 2⟩, [], false⟩, by rfl, by rfl, by rfl, by rfl⟩

/-- C110. A second move-to is ignored, whatever its arguments: the lines are joined. -/
theorem second_move_wrong (commands : List (Char × List K)) (path : Path K) (h : toGeometry commands = .ok (some path)) (c : Char)
    (hc : c = 'm' ∨ c = 'M') (args : List K) (rest : List (Char × List K)) :
    toGeometry (commands ++ (c, args) :: rest) = toGeometry (commands ++ rest) := by
  unfold toGeometry at h ⊢
  rw [List.foldlM_append, List.foldlM_append, h]
  have : extend path c args = .ok path := by
    rcases hc with rfl | rfl <;> rfl
  simp [geometryStep, this, bind, Except.bind, pure, Except.pure]

/-- `M 0 0 L 1 0 M 5 5 L 6 5`. -/
example : ∃ path : Path ℚ, toGeometry [('M', [0, 0]), ('L', [1, 0]), ('M', [5, 5]), ('L', [6, 5])] = .ok (some path) ∧
    pathCurve path = some [.curve [⟨0, 0⟩, ⟨1, 0⟩], .curve [⟨1, 0⟩, ⟨6, 5⟩]] ∧
    svgCurve [('M', [(0 : ℚ), 0]), ('L', [1, 0]), ('M', [5, 5]), ('L', [6, 5])] =
      some [.curve [⟨0, 0⟩, ⟨1, 0⟩], .curve [⟨5, 5⟩, ⟨6, 5⟩]] :=
  ⟨⟨⟨0, 0⟩, [.line ⟨1, 0⟩ true none false false, .line ⟨6, 5⟩ true none false false], false⟩, by rfl, by rfl, by rfl⟩

theorem addPart_closed (path : Path K) (hc : path.closed = true) (part : Path.Part K) : path.addPart part = (.ok none, path) := by
  simp [Path.Path.addPart, hc]

/-- C110. Nothing is added after a close command, whatever the commands which do not raise. -/
theorem after_close_wrong (path path' : Path K) (hc : path.closed = true) (c : Char) (args : List K) (h : extend path c args = .ok path') :
    path' = path := by
  have hv : ∀ r : Path K, .ok path = (.ok r : Except PyErr (Path K)) → r = path := fun r e => (Except.ok.inj e).symm
  unfold extend at h
  simp only [Path.Path.lineTo, Path.Path.horizontalTo, Path.Path.verticalTo, Path.Path.absoluteHorizontalTo,
    Path.Path.absoluteVerticalTo, Path.Path.cubicTo, Path.Path.quadraticTo, Path.Path.stringedCubicTo, Path.Path.arcTo,
    Path.Path.stringedQuadraticTo] at h
  have hclose : added path.close = .ok path := by
    obtain ⟨p0, parts, closed⟩ := path
    simp only at hc
    subst hc
    rfl
  have hbind : ∀ (l : Except PyErr (List (Vec K))) (f : List (Vec K) → Except PyErr (Path K)), (∀ ps r, f ps = .ok r → r = path) →
      (l >>= f) = .ok path' → path' = path := by
    intro l f hf he
    cases l with
    | error e => cases he
    | ok ps => exact hf ps path' he
  have hadd : added ((.ok none, path) : Path.Outcome K) = .ok path := rfl
  simp only [addPart_closed path hc, hclose, ite_self, hadd] at h
  have hite : ∀ (p : Prop) [Decidable p] (a b : Except PyErr (Path K)), (a = .ok path' → path' = path) → (b = .ok path' → path' = path) →
      (if p then a else b) = .ok path' → path' = path := by
    intro p _ a b ha hb hi
    by_cases hp : p
    · rw [if_pos hp] at hi; exact ha hi
    · rw [if_neg hp] at hi; exact hb hi
  revert h
  refine hite _ _ _ (fun h => ?_) ?_
  · cases hvec : vector args with
    | error e => rw [hvec] at h; cases h
    | ok p => rw [hvec] at h; exact hv _ h
  refine hite _ _ _ (fun he => ?_) ?_
  · split at he <;> first | exact hv _ he | cases he
  refine hite _ _ _ (fun he => ?_) ?_
  · split at he <;> first | exact hv _ he | cases he
  refine hite _ _ _ (fun he => ?_) ?_
  · split at he <;> first | exact hv _ he | cases he
  refine hite _ _ _ (fun he => ?_) ?_
  · split at he <;> first | exact hv _ he | cases he
  refine hite _ _ _ (hbind _ _ fun ps r he => ?_) ?_
  · split at he <;> first | exact hv _ he | cases he
  refine hite _ _ _ (hbind _ _ fun ps r he => ?_) ?_
  · split at he <;> cases he
  refine hite _ _ _ (hbind _ _ fun ps r he => ?_) ?_
  · split at he <;> first | exact hv _ he | cases he
  refine hite _ _ _ (hbind _ _ fun ps r he => ?_) ?_
  · split at he <;> first | exact hv _ he | cases he
  refine hite _ _ _ (fun he => ?_) ?_
  · split at he <;> first | exact hv _ he | cases he
  exact hv _

/-- C110. A move or a line without exactly two numbers raises `ValueError`. -/
theorem wrong_coordinates (path : Path K) (command : Char) (args : List K) (hn : args.length ≠ 2) :
    (command.toLower = 'm' → geometryStep none (command, args) = .error .valueError) ∧
    (command.toLower = 'l' → geometryStep (some path) (command, args) = .error .valueError) := by
  have hv : vector args = .error .valueError := by
    match args, hn with
    | [], _ => rfl
    | [_], _ => rfl
    | [_, _], h => exact absurd rfl h
    | _ :: _ :: _ :: _, _ => rfl
  refine ⟨fun h => ?_, fun h => ?_⟩
  · simp only [geometryStep, h, ne_eq, not_true_eq_false, if_false, hv]
    rfl
  · simp only [geometryStep, extend, h, if_true, hv]
    rfl

/-- C110. A smooth cubic curve with its four arguments raises `TypeError`, and so does a smooth quadratic curve with two arguments. -/
theorem smooth_wrong (path : Path K) (x1 y1 x2 y2 : K) :
    extend path 'S' [x1, y1, x2, y2] = .error .typeError ∧ extend path 's' [x1, y1, x2, y2] = .error .typeError ∧
      extend path 'T' [x1, y1] = .error .typeError ∧ extend path 't' [x1, y1] = .error .typeError := by
  refine ⟨?_, ?_, ?_, ?_⟩ <;> simp [extend, asVector, pairs, bind, Except.bind]

end Geometry

end Patro.SvgPath
