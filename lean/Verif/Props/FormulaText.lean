import Verif.Props.Formula
import Verif.Props.Calculator
/-!
# C225: what is evaluated is a formula
-/

namespace Patro.Formulas

open Patro.Text (Text)
open Patro.Calculator (isIdent Free keywords pythonise)
open Patro.SketchGeometry (Env)

namespace Formula

/-! ## The tokens -/

/-- How a token is written. -/
inductive Spelled : Tok → Text → Prop
  | whole (ds : Text) (h : ds ≠ []) (h1 : AreDigits ds) (h2 : ds.head? = some '0' → ds = ['0']) : Spelled (.num ds []) ds
  | fraction (ds fs : Text) (h : ds ≠ []) (h1 : AreDigits ds) (h2 : AreDigits fs) : Spelled (.num ds fs) (ds ++ '.' :: fs)
  | name (n : Text) (h : n ≠ []) (h1 : ∀ c ∈ n, isIdent c = true) (h2 : ∀ c, n.head? = some c → c ∉ "0123456789".toList) (h3 : n ∉ pythonWords) :
    Spelled (.name n) n
  | str (s : Text) : Spelled (.str s) ('\'' :: s ++ ['\''])
  | sym (c : Char) : Spelled (.sym c) [c]

/-- How tokens are written, with blanks between them. -/
inductive Spells : List Tok → Text → Prop
  | nil (n : Nat) : Spells [] (List.replicate n ' ')
  | cons (n : Nat) (tok : Tok) (s : Text) (ts : List Tok) (t : Text) (h : Spelled tok s) (h1 : Spells ts t) :
    Spells (tok :: ts) (List.replicate n ' ' ++ (s ++ t))

theorem spells_blank {ts : List Tok} {t : Text} (h : Spells ts t) : Spells ts (' ' :: t) := by
  cases h with
  | nil n => exact .nil (n + 1)
  | cons n tok s ts t h h1 =>
    have := Spells.cons (n + 1) tok s ts t h h1
    rwa [List.replicate_succ, List.cons_append] at this

theorem spells_first {tok : Tok} {s : Text} {ts : List Tok} {t : Text} (h : Spelled tok s) (h1 : Spells ts t) : Spells (tok :: ts) (s ++ t) := by
  simpa using Spells.cons 0 tok s ts t h h1

theorem spells_inv {tok : Tok} {ts : List Tok} {t : Text} (h : Spells (tok :: ts) t) :
    ∃ n s t', t = List.replicate n ' ' ++ (s ++ t') ∧ Spelled tok s ∧ Spells ts t' := by
  cases h with
  | cons n tok s ts t h h1 => exact ⟨n, s, t, rfl, h, h1⟩

/-- The text of the token being read. -/
def curText : Cur → Text
  | .nothing => []
  | .whole ds => ds
  | .fraction ds fs => ds ++ '.' :: fs
  | .name n => n
  | .str s => '\'' :: s

/-- The token being read is well written. -/
def CurOk : Cur → Prop
  | .nothing => True
  | .whole ds => ds ≠ [] ∧ AreDigits ds
  | .fraction ds fs => ds ≠ [] ∧ AreDigits ds ∧ AreDigits fs
  | .name n => n ≠ [] ∧ (∀ c ∈ n, isIdent c = true) ∧ ∀ c, n.head? = some c → c ∉ "0123456789".toList
  | .str _ => True

theorem isDigit_iff (c : Char) : isDigit c = true ↔ c ∈ "0123456789".toList := by simp only [isDigit, decide_eq_true_eq]

theorem digits_snoc {ds : Text} {c : Char} (h : AreDigits ds) (hc : isDigit c = true) : AreDigits (ds ++ [c]) := by
  intro x hx
  rw [List.mem_append, List.mem_singleton] at hx
  rcases hx with hx | rfl
  · exact h x hx
  · exact (isDigit_iff _).1 hc

/-- What a character begins. -/
theorem begin_spells (c : Char) (t : Text) (b us : List Tok) (cur : Cur) (ih : ∀ cur ts, CurOk cur → lexFrom cur t = some ts → Spells ts (curText cur ++ t))
    (hb : Cur.begin c = some (b, cur)) (hl : lexFrom cur t = some us) : Spells (b ++ us) (c :: t) := by
  unfold Cur.begin at hb
  split at hb
  · rename_i hc
    cases hb
    refine ih (.whole [c]) us ⟨by simp, ?_⟩ hl
    intro x hx
    rw [List.mem_singleton] at hx
    rw [hx]
    exact (isDigit_iff _).1 hc
  · rename_i hd
    split at hb
    · rename_i hc
      cases hb
      refine ih (.name [c]) us ⟨by simp, by simpa using hc, ?_⟩ hl
      intro x hx
      simp only [List.head?_cons, Option.some.injEq] at hx
      rw [← hx]
      intro h
      exact hd ((isDigit_iff _).2 h)
    · split at hb
      · rename_i hc
        cases hb
        subst hc
        exact ih (.str []) us trivial hl
      · split at hb
        · rename_i hc
          cases hb
          subst hc
          exact spells_blank (ih .nothing us trivial hl)
        · split at hb
          · cases hb
            exact spells_first (.sym c) (ih .nothing us trivial hl)
          · cases hb

theorem flush_spells (cur : Cur) (h : CurOk cur) (a us : List Tok) (t : Text) (ha : cur.flush = some a) (hu : Spells us t) :
    Spells (a ++ us) (curText cur ++ t) := by
  cases cur with
  | nothing => cases ha; exact hu
  | whole ds =>
    simp only [Cur.flush] at ha
    split at ha
    · cases ha
    · rename_i hz
      cases ha
      refine spells_first (.whole ds h.1 h.2 fun h0 => ?_) hu
      by_contra hne
      exact hz ⟨h0, hne⟩
  | fraction ds fs =>
    cases ha
    exact spells_first (.fraction ds fs h.1 h.2.1 h.2.2) hu
  | name n =>
    simp only [Cur.flush] at ha
    split at ha
    · cases ha
    · rename_i hr
      cases ha
      exact spells_first (.name n h.1 h.2.1 h.2.2 hr) hu
  | str s => cases ha

/-- The tokens of a text are written in it. -/
theorem lex_spells (t : Text) : ∀ (cur : Cur) (ts : List Tok), CurOk cur → lexFrom cur t = some ts → Spells ts (curText cur ++ t) := by
  induction t with
  | nil =>
    intro cur ts h hl
    have := flush_spells cur h ts [] [] hl (.nil 0)
    rwa [List.append_nil] at this
  | cons c t ih =>
    intro cur ts h hl
    simp only [lexFrom] at hl
    have close : ∀ (d : Cur), CurOk d → (match d.flush, Cur.begin c with
        | some a, some (b, cur) => some (a ++ b, cur)
        | _, _ => none) = d.step c → d.step c = cur.step c → curText d = curText cur → Spells ts (curText cur ++ c :: t) := by
      intro d hd h1 h2 h3
      rw [← h2, ← h1] at hl
      cases ha : d.flush with
      | none => simp [ha] at hl
      | some a =>
        cases hb : Cur.begin c with
        | none => simp [ha, hb] at hl
        | some r =>
          obtain ⟨b, e⟩ := r
          simp only [ha, hb, Option.map_eq_some_iff] at hl
          obtain ⟨us, hu, rfl⟩ := hl
          rw [← h3, List.append_assoc]
          exact flush_spells d hd a _ _ ha (begin_spells c t b us e ih hb hu)
    cases cur with
    | nothing => exact close .nothing trivial (by
        simp only [Cur.flush, Cur.step]
        cases Cur.begin c with
        | none => rfl
        | some r => obtain ⟨b, e⟩ := r; rfl) rfl rfl
    | whole ds =>
      by_cases hd : isDigit c = true
      · simp only [Cur.step, hd, if_true, Option.map_eq_some_iff] at hl
        obtain ⟨us, hu, rfl⟩ := hl
        have := ih (.whole (ds ++ [c])) us ⟨by simp, digits_snoc h.2 hd⟩ hu
        simpa [curText] using this
      · by_cases hp : c = '.'
        · have e : Cur.step (.whole ds) c = some ([], .fraction ds []) := by
            simp only [Cur.step]
            rw [if_neg hd, if_pos hp]
          rw [e] at hl
          simp only [Option.map_eq_some_iff] at hl
          obtain ⟨us, hu, rfl⟩ := hl
          have := ih (.fraction ds []) us ⟨h.1, h.2, by simp [AreDigits]⟩ hu
          simpa [curText, hp] using this
        · by_cases hi : isIdent c = true
          · simp [Cur.step, hd, hp, hi] at hl
          · exact close (.whole ds) h (by simp only [Cur.step, hd, hp, hi]; rfl) rfl rfl
    | fraction ds fs =>
      by_cases hd : isDigit c = true
      · simp only [Cur.step, hd, if_true, Option.map_eq_some_iff] at hl
        obtain ⟨us, hu, rfl⟩ := hl
        have := ih (.fraction ds (fs ++ [c])) us ⟨h.1, h.2.1, digits_snoc h.2.2 hd⟩ hu
        simpa [curText] using this
      · by_cases hi : isIdent c = true
        · simp [Cur.step, hd, hi] at hl
        · exact close (.fraction ds fs) h (by simp only [Cur.step, hd, hi]; rfl) rfl rfl
    | name n =>
      by_cases hi : isIdent c = true
      · simp only [Cur.step, hi, if_true, Option.map_eq_some_iff] at hl
        obtain ⟨us, hu, rfl⟩ := hl
        have := ih (.name (n ++ [c])) us ⟨by simp, ?_, ?_⟩ hu
        · simpa [curText] using this
        · intro x hx
          rw [List.mem_append, List.mem_singleton] at hx
          rcases hx with hx | rfl
          · exact h.2.1 x hx
          · exact hi
        · intro x hx
          rw [head_append _ h.1] at hx
          exact h.2.2 x hx
      · exact close (.name n) h (by simp only [Cur.step, hi]; rfl) rfl rfl
    | str s =>
      by_cases hq : c = '\''
      · simp only [Cur.step, if_pos hq, Option.map_eq_some_iff] at hl
        obtain ⟨us, hu, rfl⟩ := hl
        have := spells_first (.str s) (ih .nothing us trivial hu)
        simpa [curText, hq] using this
      · simp only [Cur.step, if_neg hq, Option.map_eq_some_iff] at hl
        obtain ⟨us, hu, rfl⟩ := hl
        have := ih (.str (s ++ [c])) us trivial hu
        simpa [curText] using this

/-! ## The formulas -/

/-- No function is used in a text, not even with the name which the code gives to it in Python. -/
def Plain (t : Text) : Prop := Free t ∧ ¬ "__calculator__".toList <:+: t

theorem Plain.infix {s t : Text} (h : Plain t) (hs : s <:+: t) : Plain s :=
  ⟨fun k hk hks => h.1 k hk (hks.trans hs), fun hk => h.2 (hk.trans hs)⟩

/-- Blanks before a formula. -/
theorem pad_before (n : Nat) (f : Formula) (h : f.Good) :
    ∃ g : Formula, g.Good ∧ g.source = List.replicate n ' ' ++ f.source ∧ g.level = f.level := by
  induction n with
  | zero => exact ⟨f, h, rfl, rfl⟩
  | succ n ih =>
    obtain ⟨g, h1, h2, h3⟩ := ih
    exact ⟨before g, h1, by rw [List.replicate_succ, List.cons_append, ← h2]; rfl, h3⟩

/-- Blanks after a formula. -/
theorem pad_after (n : Nat) (f : Formula) (h : f.Good) :
    ∃ g : Formula, g.Good ∧ g.source = f.source ++ List.replicate n ' ' ∧ g.level = f.level := by
  induction n with
  | zero => exact ⟨f, h, by simp, rfl⟩
  | succ n ih =>
    obtain ⟨g, h1, h2, h3⟩ := ih
    refine ⟨after g, h1, ?_, h3⟩
    rw [List.replicate_succ', ← List.append_assoc, ← h2]
    rfl

/-- The beginning of a text is a formula of at least a level, and tokens are left. -/
def Reads (level : Nat) (start t : Text) (r : List Tok) : Prop :=
  ∃ (f : Formula) (t' : Text), f.Good ∧ level ≤ f.level ∧ f.source ++ t' = start ++ t ∧ Spells r t' ∧ t' <:+ t

theorem sym_inv {c : Char} {ts : List Tok} {t : Text} (h : Spells (.sym c :: ts) t) :
    ∃ n t', t = List.replicate n ' ' ++ c :: t' ∧ Spells ts t' ∧ t' <:+ t := by
  obtain ⟨n, s, t', h1, h2, h3⟩ := spells_inv h
  cases h2
  refine ⟨n, t', h1, h3, ?_⟩
  rw [h1]
  exact ⟨List.replicate n ' ' ++ [c], by simp⟩

theorem reads_atom {n : Nat} {t : Text} {s t' : Text} {r : List Tok} (f : Formula) (hf : f.Good) (hl : f.level = 3) (hs : f.source = s)
    (ht : t = List.replicate n ' ' ++ (s ++ t')) (hr : Spells r t') : Reads 3 [] t r := by
  obtain ⟨g, h1, h2, h3⟩ := pad_before n f hf
  refine ⟨g, t', h1, by rw [h3, hl], ?_, hr, ?_⟩
  · rw [h2, hs, ht, List.nil_append, List.append_assoc]
  · rw [ht]
    exact ⟨List.replicate n ' ' ++ s, by simp⟩

/-- What the functions of the grammar read. -/
theorem parse_reads (n : Nat) :
    (∀ ts a r t, parseSum n ts = some (a, r) → Spells ts t → Plain t → Reads 0 [] t r) ∧
    (∀ a ts a' r t (f : Formula), sumLoop n a ts = some (a', r) → f.Good → Spells ts t → Plain t → Reads 0 f.source t r) ∧
    (∀ ts a r t, parseProduct n ts = some (a, r) → Spells ts t → Plain t → Reads 1 [] t r) ∧
    (∀ a ts a' r t (f : Formula), productLoop n a ts = some (a', r) → f.Good → 1 ≤ f.level → Spells ts t → Plain t → Reads 1 f.source t r) ∧
    (∀ ts a r t, parseSigned n ts = some (a, r) → Spells ts t → Plain t → Reads 2 [] t r) ∧
    (∀ ts a r t, parseAtom n ts = some (a, r) → Spells ts t → Plain t → Reads 3 [] t r) := by
  induction n with
  | zero =>
    refine ⟨?_, ?_, ?_, ?_, ?_, ?_⟩
    · intro ts a r t h; cases h
    · intro a ts a' r t f h; simp [sumLoop] at h
    · intro ts a r t h; cases h
    · intro a ts a' r t f h; simp [productLoop] at h
    · intro ts a r t h; simp [parseSigned] at h
    · intro ts a r t h; simp [parseAtom] at h
  | succ n ih =>
    obtain ⟨i1, i2, i3, i4, i5, i6⟩ := ih
    refine ⟨?_, ?_, ?_, ?_, ?_, ?_⟩
    · intro ts a r t h hs hp
      rw [parseSum] at h
      split at h
      · rename_i b q hq
        obtain ⟨f, t', k1, k2, k3, k4, k5⟩ := i3 _ _ _ _ hq hs hp
        obtain ⟨g, u, m1, m2, m3, m4, m5⟩ := i2 _ _ _ _ t' f h k1 k4 (hp.infix k5.isInfix)
        exact ⟨g, u, m1, m2, by rw [m3, k3], m4, m5.trans k5⟩
      · cases h
    · have step : ∀ (c : Char) (op : Formula → Formula → Formula), (∀ f g : Formula, f.Good → g.Good → 1 ≤ g.level → (op f g).Good) →
          (∀ f g : Formula, (op f g).source = f.source ++ c :: g.source) → ∀ a a' b q rest r t (f : Formula), parseProduct n rest = some (b, q) →
          sumLoop n a q = some (a', r) → f.Good → Spells (.sym c :: rest) t → Plain t → Reads 0 f.source t r := by
        intro c op ho1 ho2 a a' b q rest r t f hq h hf hs hp
        obtain ⟨m, t1, e1, hs1, hi1⟩ := sym_inv hs
        obtain ⟨g, t', k1, k2, k3, k4, k5⟩ := i3 _ _ _ _ hq hs1 (hp.infix hi1.isInfix)
        obtain ⟨f', j1, j2, j3⟩ := pad_after m f hf
        obtain ⟨g', u, m1, m2, m3, m4, m5⟩ := i2 _ _ _ _ t' (op f' g) h (ho1 _ _ j1 k1 k2) k4 (hp.infix (k5.trans hi1).isInfix)
        refine ⟨g', u, m1, m2, ?_, m4, (m5.trans k5).trans hi1⟩
        rw [List.nil_append] at k3
        rw [m3, ho2, j2, e1, ← k3]
        simp
      intro a ts a' r t f h hf hs hp
      unfold sumLoop at h
      split at h
      · cases ‹n + 1 = 0›
      · rename_i e; cases e
        split at h
        · exact step '+' add (fun _ _ h1 h2 h3 => ⟨h1, h2, h3⟩) (fun _ _ => rfl) _ _ _ _ _ _ _ _ ‹_› h hf hs hp
        · cases h
      · rename_i e; cases e
        split at h
        · exact step '-' sub (fun _ _ h1 h2 h3 => ⟨h1, h2, h3⟩) (fun _ _ => rfl) _ _ _ _ _ _ _ _ ‹_› h hf hs hp
        · cases h
      · cases h
        exact ⟨f, t, hf, Nat.zero_le _, rfl, hs, List.suffix_refl _⟩
    · intro ts a r t h hs hp
      rw [parseProduct] at h
      split at h
      · rename_i b q hq
        obtain ⟨f, t', k1, k2, k3, k4, k5⟩ := i5 _ _ _ _ hq hs hp
        obtain ⟨g, u, m1, m2, m3, m4, m5⟩ := i4 _ _ _ _ t' f h k1 (by omega) k4 (hp.infix k5.isInfix)
        exact ⟨g, u, m1, m2, by rw [m3, k3], m4, m5.trans k5⟩
      · cases h
    · have step : ∀ (c : Char) (op : Formula → Formula → Formula), (∀ f g : Formula, f.Good → g.Good → 1 ≤ f.level → 2 ≤ g.level →
          (op f g).Good ∧ 1 ≤ (op f g).level) →
          (∀ f g : Formula, (op f g).source = f.source ++ c :: g.source) → ∀ a a' b q rest r t (f : Formula), parseSigned n rest = some (b, q) →
          productLoop n a q = some (a', r) → f.Good → 1 ≤ f.level → Spells (.sym c :: rest) t → Plain t → Reads 1 f.source t r := by
        intro c op ho1 ho2 a a' b q rest r t f hq h hf hl hs hp
        obtain ⟨m, t1, e1, hs1, hi1⟩ := sym_inv hs
        obtain ⟨g, t', k1, k2, k3, k4, k5⟩ := i5 _ _ _ _ hq hs1 (hp.infix hi1.isInfix)
        obtain ⟨f', j1, j2, j3⟩ := pad_after m f hf
        obtain ⟨o1, o2⟩ := ho1 f' g j1 k1 (by omega) k2
        obtain ⟨g', u, m1, m2, m3, m4, m5⟩ := i4 _ _ _ _ t' (op f' g) h o1 o2 k4 (hp.infix (k5.trans hi1).isInfix)
        refine ⟨g', u, m1, m2, ?_, m4, (m5.trans k5).trans hi1⟩
        rw [List.nil_append] at k3
        rw [m3, ho2, j2, e1, ← k3]
        simp
      intro a ts a' r t f h hf hl hs hp
      unfold productLoop at h
      split at h
      · cases ‹n + 1 = 0›
      · rename_i e; cases e
        split at h
        · exact step '*' mul (fun _ _ h1 h2 h3 h4 => ⟨⟨h1, h2, h3, h4⟩, le_refl _⟩) (fun _ _ => rfl) _ _ _ _ _ _ _ _ ‹_› h hf hl hs hp
        · cases h
      · rename_i e; cases e
        split at h
        · exact step '/' div (fun _ _ h1 h2 h3 h4 => ⟨⟨h1, h2, h3, h4⟩, le_refl _⟩) (fun _ _ => rfl) _ _ _ _ _ _ _ _ ‹_› h hf hl hs hp
        · cases h
      · cases h
        exact ⟨f, t, hf, hl, rfl, hs, List.suffix_refl _⟩
    · have step : ∀ (c : Char) (op : Formula → Formula), (∀ f : Formula, f.Good → 2 ≤ f.level → (op f).Good ∧ (op f).level = 2) →
          (∀ f : Formula, (op f).source = c :: f.source) → ∀ b q rest t, parseSigned n rest = some (b, q) →
          Spells (.sym c :: rest) t → Plain t → Reads 2 [] t q := by
        intro c op ho1 ho2 b q rest t hq hs hp
        obtain ⟨m, t1, e1, hs1, hi1⟩ := sym_inv hs
        obtain ⟨g, t', k1, k2, k3, k4, k5⟩ := i5 _ _ _ _ hq hs1 (hp.infix hi1.isInfix)
        obtain ⟨o1, o2⟩ := ho1 g k1 k2
        obtain ⟨f', j1, j2, j3⟩ := pad_before m (op g) o1
        refine ⟨f', t', j1, by omega, ?_, k4, k5.trans hi1⟩
        rw [List.nil_append] at k3
        rw [j2, ho2, e1, ← k3]
        simp
      intro ts a r t h hs hp
      unfold parseSigned at h
      split at h
      · cases ‹n + 1 = 0›
      · rename_i e; cases e
        split at h
        · cases h
          exact step '+' pos (fun _ h1 h2 => ⟨⟨h1, h2⟩, rfl⟩) (fun _ => rfl) _ _ _ _ ‹_› hs hp
        · cases h
      · rename_i e; cases e
        split at h
        · cases h
          exact step '-' neg (fun _ h1 h2 => ⟨⟨h1, h2⟩, rfl⟩) (fun _ => rfl) _ _ _ _ ‹_› hs hp
        · cases h
      · rename_i e _ _; cases e
        obtain ⟨f, t', k1, k2, k3⟩ := i6 _ _ _ _ h hs hp
        exact ⟨f, t', k1, by omega, k3⟩
    · intro ts a r t h hs hp
      unfold parseAtom at h
      split at h
      · cases ‹n + 1 = 0›
      · cases h
        obtain ⟨m, s, t', e, h1, h2⟩ := spells_inv hs
        cases h1 with
        | whole ds k1 k2 k3 => exact reads_atom (number _ none) ⟨k1, k2, k3⟩ rfl rfl e h2
        | fraction ds fs k1 k2 k3 => exact reads_atom (number _ (some _)) ⟨k1, k2, k3⟩ rfl rfl e h2
      · exfalso
        obtain ⟨m, s, t', e, h1, h2⟩ := spells_inv hs
        cases h1
        split at h
        · rename_i hn
          apply hp.2
          rw [e, ← hn]
          exact ⟨List.replicate m ' ', t', by simp⟩
        · cases h
      · split at h
        · cases h
        · cases h
          obtain ⟨m, s, t', e, h1, h2⟩ := spells_inv hs
          cases h1 with
          | name n k1 k2 k3 k4 =>
            refine reads_atom (measurement _) ⟨k1, k2, k3, k4, ‹_›, ?_⟩ rfl rfl e h2
            refine (hp.infix ?_).1
            rw [e]
            exact ⟨List.replicate m ' ', t', by simp⟩
      · rename_i e; cases e
        split at h
        · rename_i b q hq
          cases h
          obtain ⟨m, t1, e1, hs1, hi1⟩ := sym_inv hs
          obtain ⟨g, t', k1, k2, k3, k4, k5⟩ := i1 _ _ _ _ hq hs1 (hp.infix hi1.isInfix)
          obtain ⟨m', t2, e2, hs2, hi2⟩ := sym_inv k4
          obtain ⟨g', j1, j2, j3⟩ := pad_after m' g k1
          refine reads_atom (n := m) (s := '(' :: g'.source ++ [')']) (t' := t2) (paren g') j1 rfl rfl ?_ hs2
          rw [List.nil_append] at k3
          rw [e1, ← k3, e2, j2]
          simp
        · cases h
      · cases h

/-- A text which is parsed is a formula, when no function is used in it. -/
theorem parse_is_formula (t : Text) (a : Tree) (hp : Plain t) (h : parse t = some a) :
    ∃ f : Formula, f.Good ∧ f.source = t ∧ t.head? ≠ some ' ' := by
  unfold parse at h
  split at h
  · cases h
  · rename_i hb
    split at h
    · cases h
    · rename_i ts hl
      split at h
      · rename_i b hq
        obtain ⟨f, t', k1, k2, k3, k4, k5⟩ := (parse_reads _).1 _ _ _ t hq (lex_spells t .nothing ts trivial hl) hp
        cases k4 with
        | nil m =>
          obtain ⟨g, j1, j2, j3⟩ := pad_after m f k1
          exact ⟨g, j1, by rw [j2, k3]; rfl, hb⟩
      · cases h

/-- A text without functions and custom measurements is not rewritten. -/
theorem pythonise_plain (pyName : Text → Except PyErr Text) (t : Text) (h : Free t) (hat : '@' ∉ t) : pythonise pyName t = .ok t := by
  have hc : Calculator.functionCalls t = [] := by
    unfold Calculator.functionCalls
    rw [List.flatMap_eq_nil_iff]
    intro p hpre
    have hk : p ∈ keywords ∧ p ≠ [] := by
      revert p
      decide
    rw [List.eq_nil_iff_forall_not_mem]
    intro x hx
    obtain ⟨s, h1, -⟩ := Calculator.identifiers_sound t p hk.2 x hx
    refine h p hk.1 ?_
    exact h1.isInfix.trans (List.drop_suffix s t).isInfix
  unfold pythonise Calculator.rewriteCustom Calculator.rewriteCalls
  rw [if_neg hat, hc]
  rfl

theorem good_no_custom (f : Formula) (h : f.Good) (n : Text) : custom n ∉ f.parts := fun hn => wellFormed_part _ f _ h hn

theorem line_source (a b : Text) : (Calculator.Word.call "Line".toList [a, b]).source = (line a b).source := by
  change "Line".toList ++ '_' :: (a ++ '_' :: b) = "Line_".toList ++ a ++ '_' :: b
  rw [show "Line_".toList = "Line".toList ++ ['_'] from by decide +kernel]
  simp only [List.append_assoc, List.cons_append, List.nil_append]

theorem angleLine_source (a b : Text) : (Calculator.Word.call "AngleLine".toList [a, b]).source = (angleLine a b).source := by
  change "AngleLine".toList ++ '_' :: (a ++ '_' :: b) = "AngleLine_".toList ++ a ++ '_' :: b
  rw [show "AngleLine_".toList = "AngleLine".toList ++ ['_'] from by decide +kernel]
  simp only [List.append_assoc, List.cons_append, List.nil_append]

/-- The words of a formula are in its text. -/
theorem word_infix (f : Formula) : ∀ w ∈ f.words, w.source <:+: f.source := by
  induction f with
  | number w o =>
    cases o with
    | none => simp [words, source, plain_source]
    | some x =>
      intro v hv
      simp only [words, List.mem_cons, List.not_mem_nil, or_false] at hv
      rcases hv with rfl | rfl
      · exact ⟨[], '.' :: x, by simp [source, plain_source]⟩
      · exact ⟨w ++ ['.'], [], by simp [source, plain_source]⟩
  | measurement n => simp [words, source, plain_source]
  | custom n =>
    intro v hv
    simp only [words, List.mem_singleton] at hv
    subst hv
    exact ⟨['@'], [], by simp [source, plain_source]⟩
  | line a b =>
    intro v hv
    simp only [words, List.mem_singleton] at hv
    subst hv
    rw [line_source]
  | angleLine a b =>
    intro v hv
    simp only [words, List.mem_singleton] at hv
    subst hv
    rw [angleLine_source]
  | currentLength =>
    intro v hv
    simp only [words, List.mem_singleton] at hv
    subst hv
    exact List.infix_refl _
  | paren f ih => exact fun v hv => (ih v hv).trans ⟨['('], [')'], rfl⟩
  | pos f ih => exact fun v hv => (ih v hv).trans ⟨['+'], [], by simp [source]⟩
  | neg f ih => exact fun v hv => (ih v hv).trans ⟨['-'], [], by simp [source]⟩
  | add f g i1 i2 =>
    intro v hv
    rcases List.mem_append.1 hv with hv | hv
    · exact (i1 v hv).trans ⟨[], '+' :: g.source, by simp [source]⟩
    · exact (i2 v hv).trans ⟨f.source ++ ['+'], [], by simp [source]⟩
  | sub f g i1 i2 =>
    intro v hv
    rcases List.mem_append.1 hv with hv | hv
    · exact (i1 v hv).trans ⟨[], '-' :: g.source, by simp [source]⟩
    · exact (i2 v hv).trans ⟨f.source ++ ['-'], [], by simp [source]⟩
  | mul f g i1 i2 =>
    intro v hv
    rcases List.mem_append.1 hv with hv | hv
    · exact (i1 v hv).trans ⟨[], '*' :: g.source, by simp [source]⟩
    · exact (i2 v hv).trans ⟨f.source ++ ['*'], [], by simp [source]⟩
  | div f g i1 i2 =>
    intro v hv
    rcases List.mem_append.1 hv with hv | hv
    · exact (i1 v hv).trans ⟨[], '/' :: g.source, by simp [source]⟩
    · exact (i2 v hv).trans ⟨f.source ++ ['/'], [], by simp [source]⟩
  | before f ih => exact fun v hv => (ih v hv).trans ⟨[' '], [], by simp [source]⟩
  | after f ih => exact fun v hv => (ih v hv).trans ⟨[], [' '], by simp [source]⟩

/-- Without functions in its text a formula asks for no angle. -/
theorem apart_of_words (env : Env) (f : Formula) (h : ∀ a b, Calculator.Word.call "AngleLine".toList [a, b] ∉ f.words) : f.Apart env := by
  induction f with
  | angleLine a b => exact absurd (List.mem_singleton.2 rfl) (h a b)
  | paren f ih => exact ih h
  | pos f ih => exact ih h
  | neg f ih => exact ih h
  | before f ih => exact ih h
  | after f ih => exact ih h
  | add f g i1 i2 => exact ⟨i1 fun a b hw => h a b (List.mem_append_left _ hw), i2 fun a b hw => h a b (List.mem_append_right _ hw)⟩
  | sub f g i1 i2 => exact ⟨i1 fun a b hw => h a b (List.mem_append_left _ hw), i2 fun a b hw => h a b (List.mem_append_right _ hw)⟩
  | mul f g i1 i2 => exact ⟨i1 fun a b hw => h a b (List.mem_append_left _ hw), i2 fun a b hw => h a b (List.mem_append_right _ hw)⟩
  | div f g i1 i2 => exact ⟨i1 fun a b hw => h a b (List.mem_append_left _ hw), i2 fun a b hw => h a b (List.mem_append_right _ hw)⟩
  | number w o => cases o <;> trivial
  | measurement n => trivial
  | custom n => trivial
  | line a b => trivial
  | currentLength => trivial

variable {builtin : Text → Bool} {pyName : Text → Except PyErr Text} {cache : Text → Option ℝ} {env : Env}

/-- A text without functions and custom measurements which has an outcome is a readable formula. -/
theorem readable_text (t : Text) (hp : Plain t) (hat : '@' ∉ t) (hv : value builtin pyName cache t env ≠ none) :
    ∃ f : Formula, f.Readable ∧ f.source = t ∧ f.Apart env := by
  unfold value at hv
  rw [pythonise_plain pyName t hp.1 hat] at hv
  simp only at hv
  cases hq : parse t with
  | none => rw [hq] at hv; exact absurd rfl hv
  | some a =>
    obtain ⟨f, h1, h2, h3⟩ := parse_is_formula t a hp hq
    have hw := words_ok f h1.wellFormed
    have hf : ∀ w ∈ f.words, ¬ w.isFunction := by
      intro w hm hfun
      have hin := word_infix f w hm
      rw [h2] at hin
      have hok := hw w hm
      cases w with
      | plain x => exact hfun
      | call g args =>
        have hin2 : g ++ ['_'] <:+: t := by
          refine List.IsInfix.trans ⟨[], Calculator.underscored args, ?_⟩ hin
          change [] ++ (g ++ ['_']) ++ Calculator.underscored args = g ++ '_' :: Calculator.underscored args
          simp only [List.nil_append, List.append_assoc, List.cons_append]
        refine hp.1 (g ++ ['_']) ?_ hin2
        exact List.mem_cons_of_mem _ (List.mem_map.2 ⟨g, hok.1, rfl⟩)
      | currentLength => exact hp.1 _ List.mem_cons_self hin
    refine ⟨f, ⟨h1.wellFormed, ?_, ?_, ?_, by rw [h2]; exact h3⟩, h2, apart_of_words env f fun a b hm => hf _ hm trivial⟩
    · intro v _ w hm c _ _ _ hfun
      exact absurd hfun (hf w hm)
    · intro a b c e
      refine hf .currentLength ?_ trivial
      rw [e]
      simp
    · intro m n hm
      exact absurd hm (good_no_custom f h1 m)

/-- C225, what holds: the texts which are evaluated, when no function and no custom measurement is used in them, are formulas: whatever the characters
of the text, it has a value exactly if it is the text of a formula, and it is the value this formula denotes. Missing: the texts with functions or
custom measurements. -/
theorem formula_text_partial (hpy : Names pyName) (t : Text) (hp : Plain t) (hat : '@' ∉ t) (v : ℝ) :
    value builtin pyName cache t env = some (.ok (some v)) ↔ ∃ f : Formula, f.Readable ∧ f.source = t ∧ f.Means (measured pyName cache) env v := by
  constructor
  · intro hv
    obtain ⟨f, h1, h2, h3⟩ := readable_text t hp hat (by rw [hv]; simp)
    refine ⟨f, h1, h2, ?_⟩
    rw [← h2] at hv
    exact formula_value_only_partial builtin pyName hpy f h1 h3 v hv
  · rintro ⟨f, h1, rfl, h3⟩
    exact formula_value_partial builtin pyName hpy f h1 v h3

/-- C225, what holds: such a text which is not a formula has no outcome in the model. Then it is outside of the modelled part of the language. -/
theorem formula_text_outside_partial (t : Text) (hp : Plain t) (hat : '@' ∉ t) (h : ∀ f : Formula, f.Readable → f.source ≠ t) :
    value builtin pyName cache t env = none := by
  by_contra hv
  obtain ⟨f, h1, h2, -⟩ := readable_text t hp hat hv
  exact h f h1 h2

/-! ## The functions of splines -/

/-- The functions of the splines. -/
def splineFunctions : List String := ["Angle1Spl", "Angle2Spl", "C1LengthSpl", "C2LengthSpl", "Spl"]

/-- `f_A_B`. -/
def splineText (f : String) (a b : Text) : Text := f.toList ++ '_' :: (a ++ '_' :: b)

/-- C225 fails for the functions of splines: the length of a spline, its angles and the lengths of its handles are 0 for all points which are known,
whatever the spline. -/
theorem formula_spline_wrong (f : String) (hf : f ∈ splineFunctions) (a b : Text) (h : ArePoints a b)
    (hc : (⟨.call f.toList [a, b], []⟩ : Calculator.Words).NoClash) (p q : Option (Vec ℝ))
    (ha : env.points (String.ofList a) = some p) (hb : env.points (String.ofList b) = some q) :
    value builtin pyName cache (splineText f a b) env = some (.ok (some 0)) := by
  have hcall : f.toList ∈ Calculator.callNames := (show ∀ f ∈ splineFunctions, f.toList ∈ Calculator.callNames by decide +kernel) f hf
  have hq : isIdent '\'' = false := by decide +kernel
  have hat : isIdent '@' = false := by decide +kernel
  have hid : ∀ c ∈ splineText f a b, isIdent c = true := by
    intro c hm
    simp only [splineText, List.mem_append, List.mem_cons] at hm
    have h0 : ∀ f ∈ splineFunctions, ∀ c ∈ f.toList, isIdent c = true := by decide +kernel
    have h_ : isIdent '_' = true := by decide +kernel
    rcases hm with hm | rfl | hm | rfl | hm
    · exact h0 f hf c hm
    · exact h_
    · exact (h.1 c (List.mem_append_left _ hm)).1
    · exact h_
    · exact (h.1 c (List.mem_append_right _ hm)).1
  have hpy := Calculator.pythonise_words_partial pyName ⟨.call f.toList [a, b], []⟩ ⟨by
      intro w hw
      simp only [Calculator.Words.words, List.map_nil, List.mem_singleton] at hw
      subst hw
      refine ⟨hcall, by simp, ?_, h.2⟩
      intro x hx c hm
      rcases List.mem_cons.1 hx with rfl | hx
      · exact h.1 c (List.mem_append_left _ hm)
      · rw [List.mem_singleton] at hx
        subst hx
        exact h.1 c (List.mem_append_right _ hm), fun x hx => absurd hx List.not_mem_nil⟩ hc (by
      intro x y z e
      have := congrArg List.length e
      simp [Calculator.Words.words] at this
      omega) (by
      intro hm
      have hm' : '@' ∈ splineText f a b := by
        rw [← List.append_nil (splineText f a b)]
        exact hm
      have := hid _ hm'
      rw [hat] at this
      cases this)
  have e1 : (⟨.call f.toList [a, b], []⟩ : Calculator.Words).source = splineText f a b := List.append_nil _
  have e2 : (⟨.call f.toList [a, b], []⟩ : Calculator.Words).python =
      ("__calculator__._function_".toList ++ f.toList ++ "('".toList) ++ a ++ "', '".toList ++ b ++ "')".toList := by
    refine (List.append_nil _).trans ?_
    change "__calculator__._function_".toList ++ f.toList ++ '(' :: ('\'' :: a ++ '\'' :: ',' :: ' ' :: ('\'' :: b ++ ['\''])) ++ [')'] = _
    rw [show "('".toList = ['(', '\''] from by decide +kernel, show "', '".toList = ['\'', ',', ' ', '\''] from by decide +kernel,
      show "')".toList = ['\'', ')'] from by decide +kernel]
    simp only [List.append_assoc, List.cons_append, List.nil_append]
  rw [e1, e2] at hpy
  have hpre : ∀ f ∈ splineFunctions, runFrom .nothing ("__calculator__._function_".toList ++ f.toList ++ "('".toList) =
      some ([.name "__calculator__".toList, .sym '.', .name ("_function_".toList ++ f.toList), .sym '('], .str []) := by decide +kernel
  have quote : '\'' ∉ a ∧ '\'' ∉ b := by
    exact ⟨fun hm => by simpa [hq] using (h.1 _ (List.mem_append_left _ hm)).1,
      fun hm => by simpa [hq] using (h.1 _ (List.mem_append_right _ hm)).1⟩
  have hrun := run_call _ _ (hpre f hf) a b quote.1 quote.2
  have hlex := lexFrom_run _ _ _ _ [] hrun rfl
  rw [List.append_nil] at hlex
  have hhead : ∀ f ∈ splineFunctions, ∀ t, ("__calculator__._function_".toList ++ f.toList ++ "('".toList ++ t).head? ≠ some ' ' := by
    intro f _ t
    rw [show "__calculator__._function_".toList = '_' :: "_calculator__._function_".toList from by decide +kernel]
    simp only [List.cons_append, List.head?_cons]
    decide
  have hsum : parseSum (4 * (callToks ("_function_".toList ++ f.toList) a b).length + 4) (callToks ("_function_".toList ++ f.toList) a b) =
      some (.call ("_function_".toList ++ f.toList) [a, b], []) := by
    have ha := atom_call 32 ("_function_".toList ++ f.toList) a b []
    rw [List.append_nil] at ha
    have hs : parseSigned 34 (callToks ("_function_".toList ++ f.toList) a b) = _ :=
      (signed_atom 33 _ _ (by constructor <;> intro e <;> cases e)).trans ha
    have hpr : parseProduct 35 (callToks ("_function_".toList ++ f.toList) a b) = some (.call ("_function_".toList ++ f.toList) [a, b], []) := by
      rw [parseProduct, hs]
      exact productLoop_end 33 _ _ (fun r => ⟨by simp, by simp⟩)
    change parseSum 36 _ = _
    rw [parseSum, hpr]
    exact sumLoop_end 34 _ _ (fun r => ⟨by simp, by simp⟩)
  have hparse : parse (("__calculator__._function_".toList ++ f.toList ++ "('".toList) ++ a ++ "', '".toList ++ b ++ "')".toList) =
      some (.call ("_function_".toList ++ f.toList) [a, b]) := by
    unfold parse
    rw [if_neg (by simpa only [List.append_assoc] using hhead f hf (a ++ ("', '".toList ++ (b ++ "')".toList))))]
    unfold lex
    rw [hlex]
    simp only [hsum]
  unfold value
  rw [hpy]
  simp only
  rw [hparse]
  simp only
  have hv : CalcFunctions.visit (fun n => env.points (String.ofList n)) (Tree.call ("_function_".toList ++ f.toList) [a, b]).ast = .ok [] :=
    CalcFunctions.other_dependencies_wrong _ f.toList ((show ∀ f ∈ splineFunctions, f.toList ≠ "Line".toList by decide +kernel) f hf) [a, b]
  rw [hv]
  have he : (Tree.call ("_function_".toList ++ f.toList) [a, b]).eval cache env = .ok 0 := by
    change callMethod env ("_function_".toList ++ f.toList) [a, b] = _
    unfold callMethod
    simp only
    rw [if_pos (List.prefix_append _ _), List.drop_left', String.ofList_toList]
    · exact CalcFunctions.spline_functions_wrong env f _ _ hf p q ha hb
    · rfl
  rw [he]
  rfl

theorem plain_of (t : Text) (h : ∀ k ∈ keywords, ¬ k <:+: t) (h1 : ¬ "__calculator__".toList <:+: t) : Plain t := ⟨h, h1⟩

/-- `Spl_A_B` is used as it is. -/
example : ArePoints "A".toList "B".toList ∧ (⟨.call "Spl".toList ["A".toList, "B".toList], []⟩ : Calculator.Words).NoClash := by
  refine ⟨arePoints_of (by decide +kernel) (by decide +kernel), ?_⟩
  intro v hv w hw c h1 h2 h3 _
  simp only [Calculator.Words.words, List.map_nil, List.mem_singleton] at hv hw
  subst hv
  subst hw
  have : ∀ c ∈ "Spl_A_B".toList.tails, (∃ k ∈ keywords, k <+: c) → c <+: "Spl_A_B".toList → c = "Spl_A_B".toList := by decide +kernel
  exact this c ((List.mem_tails _ _).2 h1) h2 h3

/-- A text with an error, and one without. -/
example : Plain "2*(hip+1".toList ∧ '@' ∉ "2*(hip+1".toList ∧ parse "2*(hip+1".toList = none ∧ Plain "2*(hip+1)".toList ∧
    (parse "2*(hip+1)".toList).isSome := by
  refine ⟨plain_of _ (by decide +kernel) (by decide +kernel), by decide +kernel, by decide +kernel,
    plain_of _ (by decide +kernel) (by decide +kernel), by decide +kernel⟩

end Formula

end Patro.Formulas
