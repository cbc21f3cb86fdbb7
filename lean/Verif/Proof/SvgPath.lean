import Verif.Spec.SvgPath
import Verif.Proof.Xml
/-! # Lemmas for path data -/

namespace Patro.SvgPath

theorem ascii_cases (c : Char) : (∃ n < 128, c = Char.ofNat n) ∨ (∀ d : Char, d.toNat < 128 → c ≠ d) ∧ c.toLower = c := by
  by_cases h : c.toNat < 128
  · exact .inl ⟨c.toNat, h, (Char.ofNat_toNat c).symm⟩
  · refine .inr ⟨fun d hd e => h (e ▸ hd), ?_⟩
    unfold Char.toLower
    rw [dif_neg]
    rintro ⟨_, h2⟩
    have h2 : c.toNat ≤ 90 := h2
    omega

theorem ascii_induction (P : Char → Prop) (h1 : ∀ n < 128, P (Char.ofNat n))
    (h2 : ∀ c : Char, (∀ d : Char, d.toNat < 128 → c ≠ d) → c.toLower = c → P c) (c : Char) : P c := by
  rcases ascii_cases c with ⟨n, hn, rfl⟩ | ⟨h, e⟩
  · exact h1 n hn
  · exact h2 c h e

theorem args_eq (c : Char) : numberOfArgs.get? c.toLower = codeArity c := by
  refine ascii_induction (fun c => numberOfArgs.get? c.toLower = codeArity c) (by decide +kernel) (fun c h e => ?_) c
  rw [e]
  have h' : ∀ d : Char, d.toNat < 128 → ¬ d = c := fun d hd e => h d hd e.symm
  simp (discharger := decide) only [numberOfArgs, Dict.get?, h', if_false]
  unfold codeArity arity
  rw [if_neg (by rintro (e | e); exacts [h _ (by decide) e, h _ (by decide) e])]
  split
  all_goals first | rfl | exact absurd rfl (h _ (by decide))

variable {F : Type _}

/-- `k` turns of the loop lead from a state to another one. -/
inductive Steps (parts : List (Tok F)) : Nat → State F → State F → Prop
  | zero (s) : Steps parts 0 s s
  | succ (k s part s' s'') : parts[s.i]? = some part → step parts s part = .ok s' → Steps parts k s' s'' → Steps parts (k + 1) s s''

theorem Steps.trans {parts : List (Tok F)} {k l : Nat} {a b c : State F} (h : Steps parts k a b) (h' : Steps parts l b c) :
    Steps parts (k + l) a c := by
  induction h with
  | zero s => simpa using h'
  | succ k s part s' s'' h1 h2 _ ih =>
    rw [show k + 1 + l = (k + l) + 1 by omega]
    exact .succ _ _ _ _ _ h1 h2 (ih h')

theorem run_steps {parts : List (Tok F)} {k : Nat} {a b : State F} (h : Steps parts k a b) (f : Nat) :
    run parts (k + f) a = run parts f b := by
  induction h with
  | zero s => simp
  | succ k s part s' s'' h1 h2 _ ih =>
    rw [show k + 1 + f = (k + f) + 1 by omega]
    conv_lhs => unfold run
    rw [h1]
    simp only [h2]
    exact ih

theorem run_none {parts : List (Tok F)} (s : State F) (h : parts[s.i]? = none) (f : Nat) :
    run parts (f + 1) s = some (.ok s.commands) := by
  unfold run
  rw [h]

theorem run_succ {parts : List (Tok F)} : ∀ (f : Nat) (s : State F) (r), run parts f s = some r → run parts (f + 1) s = some r
  | 0, s, r, h => by simp [run] at h
  | f + 1, s, r, h => by
    unfold run at h
    unfold run
    cases hp : parts[s.i]? with
    | none => rw [hp] at h; exact h
    | some part =>
      rw [hp] at h
      simp only at h ⊢
      cases hs : step parts s part with
      | error e => rw [hs] at h; exact h
      | ok s' => rw [hs] at h; exact run_succ f s' r h

theorem run_mono {parts : List (Tok F)} (f k : Nat) (s : State F) (r) (h : run parts f s = some r) : run parts (f + k) s = some r := by
  induction k with
  | zero => exact h
  | succ k ih => exact run_succ _ _ _ ih

theorem implicit_implicit (c : Char) : implicit (implicit c) = implicit c := by
  unfold implicit
  split
  · rfl
  · split
    · rfl
    · rfl

theorem take_drop_append (pre g rest : List (Tok F)) : ((pre ++ g ++ rest).drop pre.length).take g.length = g := by
  rw [List.append_assoc, List.drop_left, List.take_left]

/-- The groups after the first one. -/
theorem groups_steps (c : Char) (hc : implicit c = c) (n : Nat) : ∀ (groups : List (List (Tok F))) (pre rest : List (Tok F))
    (cmds : List (Command F)), (∀ g ∈ groups, g.length = n ∧ ∃ x t, g = Tok.num x :: t) →
    Steps (pre ++ groups.flatten ++ rest) groups.length ⟨cmds, some c, some n, pre.length⟩
      ⟨cmds ++ groups.map fun g => (c, g), some c, some n, pre.length + groups.flatten.length⟩
  | [], pre, rest, cmds, _ => by simpa using Steps.zero _
  | g :: groups, pre, rest, cmds, h => by
    obtain ⟨hl, x, t, hg⟩ := h g (by simp)
    have ih := groups_steps c hc n groups (pre ++ g) rest (cmds ++ [(c, g)]) (fun g' h' => h g' (by simp [h']))
    have e : pre ++ (g :: groups).flatten ++ rest = pre ++ g ++ groups.flatten ++ rest := by simp
    rw [e]
    refine .succ _ _ (.num x) ⟨cmds ++ [(c, g)], some c, some n, (pre ++ g).length⟩ _ ?_ ?_ ?_
    · rw [hg]; simp
    · simp only [step, emit, hc]
      have := take_drop_append pre g (groups.flatten ++ rest)
      rw [← hl, List.append_assoc _ groups.flatten, this]
      simp
    · simpa [Nat.add_assoc] using ih

/-- The turns for a block. -/
theorem block_steps (c : Char) (n : Nat) (hc : codeArity c = some n) (pre first : List (Tok F)) (groups : List (List (Tok F)))
    (rest : List (Tok F)) (hf : first.length = n) (hg : ∀ g ∈ groups, g.length = n ∧ ∃ x t, g = Tok.num x :: t) (s : State F)
    (hs : s.i = pre.length) :
    Steps (pre ++ (.letter c :: first ++ groups.flatten) ++ rest) (groups.length + 1) s
      ⟨s.commands ++ (c, first) :: groups.map (fun g => (implicit c, g)), some (implicit c), some n,
        (pre ++ (Tok.letter c :: first ++ groups.flatten)).length⟩ := by
  have e : pre ++ (Tok.letter c :: first ++ groups.flatten) ++ rest = (pre ++ Tok.letter c :: first) ++ groups.flatten ++ rest := by
    simp
  rw [e]
  refine .succ _ _ (.letter c) ⟨s.commands ++ [(c, first)], some (implicit c), some n, (pre ++ Tok.letter c :: first).length⟩ _ ?_ ?_ ?_
  · rw [hs]; simp
  · simp only [step, args_eq, hc, emit]
    have := take_drop_append (pre ++ [Tok.letter c]) first (groups.flatten ++ rest)
    have e2 : pre ++ Tok.letter c :: first ++ groups.flatten ++ rest = pre ++ [Tok.letter c] ++ first ++ (groups.flatten ++ rest) := by
      simp
    rw [e2, hs, ← hf, show pre.length + 1 = (pre ++ [Tok.letter c]).length by simp, this]
    simp; omega
  · have := groups_steps (implicit c) (implicit_implicit c) n groups (pre ++ Tok.letter c :: first) rest (s.commands ++ [(c, first)]) hg
    simpa [Nat.add_assoc, Nat.add_comm 1] using this

theorem complete_steps {pre : List (Tok F)} (h : Complete pre) (rest : List (Tok F)) :
    ∃ k s, Steps (pre ++ rest) k State.init s ∧ s.i = pre.length := by
  induction h generalizing rest with
  | nil => exact ⟨0, State.init, .zero _, rfl⟩
  | block pre c n first groups hp hc hf hg ih =>
    obtain ⟨k, s, hs, hi⟩ := ih (Tok.letter c :: first ++ groups.flatten ++ rest)
    have hb := block_steps c n hc pre first groups rest hf hg s hi
    exact ⟨k + (groups.length + 1), _, Steps.trans (by simpa using hs) hb, rfl⟩

/-- The loop does not go on. -/
theorem stuck (parts : List (Tok F)) (x : F) (c : Char) (i : Nat) (h : parts[i]? = some (Tok.num x)) :
    ∀ (fuel : Nat) (cmds : List (Command F)), run parts fuel ⟨cmds, some c, some 0, i⟩ = none
  | 0, _ => rfl
  | fuel + 1, cmds => by
    unfold run
    simp only [h, step, emit]
    exact stuck parts x _ _ (by simpa using h) fuel _

/-- The last block of a complete sequence has `n` arguments. -/
def CompleteN (pre : List (Tok F)) (n : Nat) : Prop :=
  ∃ pre0 c first groups, Complete pre0 ∧ codeArity c = some n ∧ first.length = n ∧
    (∀ g ∈ groups, g.length = n ∧ ∃ x t, g = Tok.num x :: t) ∧ pre = pre0 ++ (Tok.letter c :: first ++ List.flatten groups)

theorem CompleteN.complete {pre : List (Tok F)} {n : Nat} (h : CompleteN pre n) : Complete pre := by
  obtain ⟨pre0, c, first, groups, h1, h2, h3, h4, rfl⟩ := h
  exact .block _ _ _ _ _ h1 h2 h3 h4

theorem CompleteN.append {pre : List (Tok F)} {n : Nat} (h : CompleteN pre n) (x : F) (t : List (Tok F))
    (hl : (Tok.num x :: t).length = n) : CompleteN (pre ++ Tok.num x :: t) n := by
  obtain ⟨pre0, c, first, groups, h1, h2, h3, h4, rfl⟩ := h
  refine ⟨pre0, c, first, groups ++ [Tok.num x :: t], h1, h2, h3, ?_, by simp⟩
  intro g hg
  simp only [List.mem_append, List.mem_singleton] at hg
  rcases hg with hg | rfl
  · exact h4 g hg
  · exact ⟨hl, x, t, rfl⟩

theorem codeArity_zero (c : Char) (h : codeArity c = some 0) : c = 'z' ∨ c = 'Z' := by
  unfold codeArity at h
  split at h
  · cases h
  · unfold arity at h
    split at h <;> first | (cases h; done) | simp

theorem CompleteN.zero {pre : List (Tok F)} (h : CompleteN pre 0) : ∃ pre0 c, Complete pre0 ∧ (c = 'z' ∨ c = 'Z') ∧ pre = pre0 ++ [Tok.letter c] := by
  obtain ⟨pre0, c, first, groups, h1, h2, h3, h4, rfl⟩ := h
  refine ⟨pre0, c, h1, codeArity_zero c h2, ?_⟩
  have : groups = [] := by
    cases groups with
    | nil => rfl
    | cons g gs =>
      obtain ⟨hl, x, t, rfl⟩ := h4 g (by simp)
      simp at hl
  rw [this, List.length_eq_zero_iff.mp h3]
  simp

/-- The invariant of the loop. -/
def Inv (parts : List (Tok F)) (s : State F) : Prop :=
  s.i ≤ parts.length → (s.i = 0 ∧ s.nargs = none) ∨ ∃ n, s.nargs = some n ∧ CompleteN (parts.take s.i) n

theorem emit_ok {parts : List (Tok F)} {s s' : State F} (h : emit parts s = .ok s') :
    ∃ n, s.nargs = some n ∧ s'.nargs = some n ∧ s'.i = s.i + n := by
  unfold emit at h
  split at h
  · rename_i n c h1 h2
    cases h
    exact ⟨n, h1, rfl, rfl⟩
  · cases h

theorem take_cons (parts : List (Tok F)) (i n : Nat) (p : Tok F) (h : parts[i]? = some p) :
    parts.take (i + 1 + n) = parts.take i ++ p :: (parts.drop (i + 1)).take n := by
  obtain ⟨hi, rfl⟩ := List.getElem?_eq_some_iff.mp h
  rw [List.take_add, List.take_succ_eq_append_getElem hi, List.append_assoc]
  rfl

theorem step_inv {parts : List (Tok F)} {s s' : State F} {part : Tok F} (hnot : ¬ NumberAfterClose parts) (hI : Inv parts s)
    (hp : parts[s.i]? = some part) (h : step parts s part = .ok s') : Inv parts s' ∧ s.i < s'.i := by
  have hlt : s.i < parts.length := (List.getElem?_eq_some_iff.mp hp).1
  unfold step at h
  cases part with
  | letter c =>
    simp only [args_eq] at h
    cases hc : codeArity c with
    | none => rw [hc] at h; cases h
    | some m =>
      rw [hc] at h
      obtain ⟨n, h1, h2, h3⟩ := emit_ok h
      simp only at h1 h3
      cases h1
      refine ⟨fun hle => .inr ⟨m, h2, ?_⟩, by omega⟩
      rw [h3, take_cons parts s.i m _ hp]
      refine ⟨parts.take s.i, c, (parts.drop (s.i + 1)).take m, [], ?_, hc, ?_, by simp, by simp⟩
      · rcases hI hlt.le with ⟨h0, _⟩ | ⟨n, _, hn⟩
        · rw [h0]; simpa using Complete.nil
        · exact hn.complete
      · rw [List.length_take, List.length_drop]; omega
  | num x =>
    simp only at h
    obtain ⟨n, h1, h2, h3⟩ := emit_ok h
    rcases hI hlt.le with ⟨_, h0⟩ | ⟨m, hm, hn⟩
    · rw [h0] at h1; cases h1
    · rw [hm] at h1; cases h1
      cases n with
      | zero =>
        exfalso
        obtain ⟨pre0, c, hq, hz, he⟩ := hn.zero
        refine hnot ⟨pre0, c, x, parts.drop (s.i + 1), hq, hz, ?_⟩
        have := take_cons parts s.i 0 _ hp
        rw [he] at this
        calc parts = parts.take (s.i + 1 + 0) ++ parts.drop (s.i + 1 + 0) := (List.take_append_drop _ _).symm
          _ = _ := by rw [this]; simp
      | succ m =>
        refine ⟨fun hle => .inr ⟨m + 1, h2, ?_⟩, by omega⟩
        rw [h3, show s.i + (m + 1) = s.i + 1 + m by omega, take_cons parts s.i m _ hp]
        apply hn.append
        rw [List.length_cons, List.length_take, List.length_drop]; omega

theorem run_some {parts : List (Tok F)} (hnot : ¬ NumberAfterClose parts) : ∀ (fuel : Nat) (s : State F), Inv parts s →
    parts.length < fuel + s.i → 0 < fuel → ∃ r, run parts fuel s = some r
  | 0, s, hI, hlt, h0 => by omega
  | fuel + 1, s, hI, hlt, _ => by
    unfold run
    cases hp : parts[s.i]? with
    | none => exact ⟨_, rfl⟩
    | some part =>
      simp only
      cases hs : step parts s part with
      | error e => exact ⟨_, rfl⟩
      | ok s' =>
        obtain ⟨hI', hi⟩ := step_inv hnot hI hp hs
        have := (List.getElem?_eq_some_iff.mp hp).1
        exact run_some hnot fuel s' hI' (by omega) (by omega)

theorem inv_init (parts : List (Tok F)) : Inv parts State.init := fun _ => .inl ⟨rfl, rfl⟩

end Patro.SvgPath
