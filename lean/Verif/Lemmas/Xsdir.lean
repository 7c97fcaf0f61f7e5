import Verif.Lemmas.Words
import Verif.Lemmas.Core
import Verif.Model.Xsdir

/-!
# Splitting of xsdir entries and reading of lines
-/

namespace ACE
open Text

namespace XsdirEntry

/-! ## The inner loop -/

theorem cut_reversed : ∀ (r x q : Str), r = x ++ ' ' :: q → q.length ≤ 100 → ∀ check : Bool,
    (check = true → 100 < r.length) →
    ∃ x' q', cut check r = .ok q' ∧ r = x' ++ ' ' :: q' ∧ q'.length ≤ 100 ∧ q.length ≤ q'.length := by
  intro r
  induction r with
  | nil => intro x q h; simp at h
  | cons c r ih =>
    intro x q h hq check hc
    have hnot : (check && decide ((c :: r).length ≤ 100)) = false := by
      cases check with
      | false => rfl
      | true => have := hc rfl; simp only [Bool.true_and, decide_eq_false_iff_not]; omega
    unfold cut
    rw [hnot]
    simp only [Bool.false_eq_true, if_false]
    cases x with
    | nil =>
      simp only [List.nil_append, List.cons.injEq] at h
      obtain ⟨rfl, rfl⟩ := h
      refine ⟨[], r, ?_, rfl, hq, Nat.le_refl _⟩
      simp only [beq_self_eq_true, if_true]
      cases r with
      | nil => rfl
      | cons d r => unfold cut; simp only [Bool.true_and, decide_eq_true hq, if_true]
    | cons y x =>
      simp only [List.cons_append, List.cons.injEq] at h
      obtain ⟨rfl, h⟩ := h
      by_cases hsp : c = ' '
      · subst hsp
        simp only [beq_self_eq_true, if_true]
        by_cases hl : r.length ≤ 100
        · refine ⟨[], r, ?_, rfl, hl, by rw [h]; simp; omega⟩
          cases r with
          | nil => rfl
          | cons d r => unfold cut; simp only [Bool.true_and, decide_eq_true hl, if_true]
        · obtain ⟨x', q', h1, h2, h3, h4⟩ := ih x q h hq true (fun _ => by omega)
          exact ⟨' ' :: x', q', h1, by rw [h2]; rfl, h3, h4⟩
      · have hb : (c == ' ') = false := by simp [hsp]
        simp only [hb]
        obtain ⟨x', q', h1, h2, h3, h4⟩ := ih x q h hq false (fun h => by cases h)
        exact ⟨c :: x', q', h1, by rw [h2]; rfl, h3, h4⟩

/-- When there is a space behind at most 100 characters, the text is cut at a space which is not before it. -/
theorem cut_of {s a b : Str} (h : s = a ++ ' ' :: b) (ha : a.length ≤ 100) (hs : 100 < s.length) :
    ∃ front back, cut true s.reverse = .ok front.reverse ∧ s = front ++ ' ' :: back ∧ front.length ≤ 100 ∧
      a.length ≤ front.length := by
  obtain ⟨x, q, h1, h2, h3, h4⟩ := cut_reversed s.reverse b.reverse a.reverse (by rw [h]; simp)
    (by simpa using ha) true (fun _ => by simpa using hs)
  refine ⟨q.reverse, x.reverse, by rw [h1, List.reverse_reverse], ?_, by simpa using h3, by simpa using h4⟩
  have := congrArg List.reverse h2
  simpa using this

theorem drop_front {front : Str} (x : Str) : (front ++ x).drop front.reverse.length = x := by simp

/-! ## Lines of words -/

/-- Words, each behind a number of blanks. -/
def spaced : List (Nat × Str) → Str
  | [] => []
  | (g, t) :: l => List.replicate g ' ' ++ t ++ spaced l

theorem spaced_append : ∀ a b : List (Nat × Str), spaced (a ++ b) = spaced a ++ spaced b
  | [], b => rfl
  | (g, t) :: a, b => by simp [spaced, spaced_append a b]

/-- A word behind blanks. -/
structure Word (p : Nat × Str) : Prop where
  gap : 1 ≤ p.1
  some : p.2 ≠ []
  noSpace : ∀ c ∈ p.2, isSpace c = false

theorem words_spaced : ∀ (l : List (Nat × Str)), (∀ p ∈ l, Word p) → ∀ s : Str,
    (∀ c, s.head? = some c → isSpace c = true) → words (spaced l ++ s) = l.map (·.2) ++ words s
  | [], _, s, _ => rfl
  | (g, t) :: l, h, s, hs => by
      have hp := h (g, t) (by simp)
      have hl : ∀ p ∈ l, Word p := fun p hp => h p (by simp [hp])
      have hh : ∀ c, (spaced l ++ s).head? = some c → isSpace c = true := by
        intro c hc
        cases l with
        | nil => exact hs c hc
        | cons q l =>
          have hq := (hl q (by simp)).gap
          obtain ⟨k, hk⟩ : ∃ k, q.1 = k + 1 := ⟨q.1 - 1, by omega⟩
          obtain ⟨g', t'⟩ := q
          simp only at hk
          subst hk
          rw [spaced, List.replicate_succ] at hc
          simp at hc
          subst hc
          decide
      rw [spaced, List.append_assoc, List.append_assoc, words_blanks, words_token hp.some hp.noSpace hh,
        words_spaced l hl s hs]
      rfl

theorem words_first {n : Nat} {t : Str} (ht : t ≠ []) (hn : ∀ c ∈ t, isSpace c = false) {l : List (Nat × Str)}
    (hl : ∀ p ∈ l, Word p) (k : Nat) : words (spaced ((n, t) :: l) ++ List.replicate k ' ') = t :: l.map (·.2) := by
  rw [spaced, List.append_assoc, List.append_assoc, words_blanks]
  have hb : ∀ c ∈ List.replicate k ' ', isSpace c = true := by
    intro c hc; rw [List.mem_replicate] at hc; rw [hc.2]; decide
  have hh : ∀ c, (spaced l ++ List.replicate k ' ').head? = some c → isSpace c = true := by
    intro c hc
    cases l with
    | nil => exact hb c (List.mem_of_head? hc)
    | cons q l =>
      have hq := (hl q (by simp)).gap
      obtain ⟨k, hk⟩ : ∃ k, q.1 = k + 1 := ⟨q.1 - 1, by omega⟩
      obtain ⟨g', t'⟩ := q
      simp only at hk
      subst hk
      rw [spaced, List.replicate_succ] at hc
      simp at hc
      subst hc
      decide
  rw [words_token ht hn hh, words_spaced l hl _ (fun c hc => hb c (List.mem_of_head? hc)), words_allSpace hb,
    List.append_nil]

/-- A space of such a text is in a gap. -/
theorem locate : ∀ (l : List (Nat × Str)) (f b : Str), (∀ p ∈ l, Word p) →
    spaced l ++ [newline] = f ++ ' ' :: b →
    ∃ l1 g t l2 a, l = l1 ++ (g, t) :: l2 ∧ a < g ∧ f = spaced l1 ++ List.replicate a ' ' ∧
      ' ' :: b = List.replicate (g - a) ' ' ++ t ++ spaced l2 ++ [newline]
  | [], f, b, _, h => by
      cases f with
      | nil => simp [spaced, newline] at h
      | cons c f => simp [spaced] at h
  | (g, t) :: l, f, b, hw, h => by
      have hp := hw (g, t) (by simp)
      have hl : ∀ p ∈ l, Word p := fun p hp => hw p (by simp [hp])
      rw [spaced, List.append_assoc, List.append_assoc] at h
      by_cases h1 : f.length < g
      · refine ⟨[], g, t, l, f.length, rfl, h1, ?_, ?_⟩
        · have := congrArg (List.take f.length) h
          rw [List.take_left, List.take_append_of_le_length (by simp; omega), List.take_replicate,
            Nat.min_eq_left (by omega)] at this
          simpa [spaced] using this.symm
        · have := congrArg (List.drop f.length) h
          rw [List.drop_left, List.drop_append_of_le_length (by simp; omega), List.drop_replicate] at this
          rw [← this]; simp
      · by_cases h2 : f.length < g + t.length
        · exfalso
          have e1 : (List.replicate g ' ' ++ (t ++ (spaced l ++ [newline])))[f.length]? = some ' ' := by
            rw [h, List.getElem?_append_right (Nat.le_refl _)]; simp
          rw [List.getElem?_append_right (by simp; omega), List.length_replicate,
            List.getElem?_append_left (by omega)] at e1
          exact absurd (hp.noSpace ' ' (List.mem_of_getElem? e1)) (by decide)
        · have e1 : f = List.replicate g ' ' ++ t ++ f.drop (g + t.length) := by
            have := congrArg (List.take (g + t.length)) h
            rw [List.take_append_of_le_length (l₁ := f) (by omega), ← List.append_assoc,
              List.take_left' (by simp)] at this
            rw [this, List.take_append_drop]
          generalize hf' : f.drop (g + t.length) = f' at e1
          rw [e1, List.append_assoc, List.append_assoc] at h
          have h' := List.append_cancel_left (List.append_cancel_left h)
          obtain ⟨l1, g2, t2, l2, a, r1, r2, r3, r4⟩ := locate l f' b hl h'
          refine ⟨(g, t) :: l1, g2, t2, l2, a, by rw [r1]; rfl, r2, ?_, r4⟩
          rw [e1, r3, spaced]; simp

/-! ## The outer loop -/

/-- A text of lines of at most 100 characters that are continued with a plus sign, and its words. -/
inductive Broken : List Str → Str → Prop where
  | last (line : Str) (ws : List Str) (hn : newline ∉ line) (hl : line.length < 100) (hw : words line = ws)
      (hne : ws ≠ []) : Broken ws (line ++ [newline])
  | more (line rest : Str) (ws1 ws2 : List Str) (hn : newline ∉ line) (hl : line.length ≤ 100)
      (hw : words line = ws1) (hne : ws1 ≠ []) (hr : Broken ws2 rest) (hb : rest.head? = some ' ') :
      Broken (ws1 ++ ws2) (line ++ " +\n".toList ++ rest)

theorem Broken.ne {ws : List Str} {text : Str} (h : Broken ws text) : ws ≠ [] := by
  cases h with
  | last _ _ _ _ _ hne => exact hne
  | more _ _ _ _ _ _ _ hne _ _ => intro e; exact hne (List.append_eq_nil_iff.mp e).1

theorem newline_spaced : ∀ (l : List (Nat × Str)), (∀ p ∈ l, ∀ c ∈ p.2, isSpace c = false) → newline ∉ spaced l
  | [], _ => by simp [spaced]
  | (g, t) :: l, h => by
      simp only [spaced, List.mem_append, not_or, List.mem_replicate]
      refine ⟨⟨fun ⟨_, e⟩ => by revert e; decide, fun hc => ?_⟩, newline_spaced l fun p hp => h p (by simp [hp])⟩
      exact absurd (h (g, t) (by simp) _ hc) (by decide)

theorem split_ok : ∀ (k : Nat) (l : List (Nat × Str)) (n : Nat) (t : Str), l.length ≤ k → t ≠ [] →
    (∀ c ∈ t, isSpace c = false) → (∀ p ∈ l, Word p) → n + t.length ≤ 100 → (l = [] → n + t.length ≤ 99) →
    (∀ p ∈ l, p.1 + p.2.length ≤ 96) → (∀ p, l.getLast? = some p → p.1 + p.2.length ≤ 95) → ∀ fuel, l.length ≤ fuel →
    ∃ text, split fuel (spaced ((n, t) :: l) ++ [newline]) = .ok text ∧ Broken (t :: l.map (·.2)) text ∧
      text.head? = (spaced ((n, t) :: l) ++ [newline]).head? := by
  intro k
  induction k with
  | zero =>
    intro l n t hk ht hn hw h1 h2 h3 h4 fuel hf
    obtain rfl : l = [] := List.length_eq_zero_iff.mp (by omega)
    have hlen : (spaced [(n, t)] ++ [newline]).length ≤ 100 := by
      have := h2 rfl
      simp [spaced]; omega
    refine ⟨spaced [(n, t)] ++ [newline], ?_, ?_, rfl⟩
    · cases fuel with
      | zero => unfold split; rw [if_pos hlen]
      | succ f => unfold split; rw [if_pos hlen]
    · refine .last _ _ (newline_spaced _ (by intro p hp; simp at hp; subst hp; exact hn)) ?_ ?_ (by simp)
      · simp only [List.length_append, List.length_cons, List.length_nil] at hlen; omega
      · have := words_first (n := n) ht hn (l := []) (by intro p hp; cases hp) 0
        simpa using this
  | succ k ih =>
    intro l n t hk ht hn hw h1 h2 h3 h4 fuel hf
    have hall : ∀ p ∈ (n, t) :: l, ∀ c ∈ p.2, isSpace c = false := by
      intro p hp
      rcases List.mem_cons.mp hp with rfl | hp
      · exact hn
      · exact (hw p hp).noSpace
    by_cases hlen : (spaced ((n, t) :: l) ++ [newline]).length ≤ 100
    · refine ⟨spaced ((n, t) :: l) ++ [newline], ?_, ?_, rfl⟩
      · cases fuel with
        | zero => unfold split; rw [if_pos hlen]
        | succ f => unfold split; rw [if_pos hlen]
      · refine .last _ _ (newline_spaced _ hall) ?_ ?_ (by simp)
        · simp only [List.length_append, List.length_cons, List.length_nil] at hlen ⊢; omega
        · have := words_first (n := n) ht hn hw 0
          simpa using this
    · cases hl : l with
      | nil => subst hl; have := h2 rfl; exact absurd (by simp [spaced]; omega) hlen
      | cons q l' =>
        rw [← hl]
        cases fuel with
        | zero => rw [hl] at hf; simp at hf
        | succ f =>
          have hq := (hw q (by rw [hl]; simp)).gap
          obtain ⟨g0, t0⟩ := q
          obtain ⟨j, rfl⟩ : ∃ j, g0 = j + 1 := ⟨g0 - 1, by simp at hq; omega⟩
          obtain ⟨front, back, c1, c2, c3, c4⟩ := cut_of (s := spaced ((n, t) :: l) ++ [newline])
            (a := List.replicate n ' ' ++ t) (b := List.replicate j ' ' ++ t0 ++ spaced l' ++ [newline])
            (by rw [hl]; simp [spaced, List.replicate_succ]) (by simp; omega) (by omega)
          have c5 : front = List.replicate n ' ' ++ t ++ front.drop (n + t.length) := by
            have := congrArg (List.take (n + t.length)) c2
            simp only [List.length_append, List.length_replicate] at c4
            rw [List.take_append_of_le_length (l₁ := front) (by omega), spaced, List.append_assoc,
              List.take_left' (by simp)] at this
            rw [this, List.take_append_drop]
          generalize hf' : front.drop (n + t.length) = f' at c5
          have c6 : spaced l ++ [newline] = f' ++ ' ' :: back := by
            rw [c5, spaced, List.append_assoc, List.append_assoc, List.append_assoc, List.append_assoc] at c2
            exact List.append_cancel_left (List.append_cancel_left c2)
          obtain ⟨l1, g, t1, l2, a, r1, r2, r3, r4⟩ := locate l f' back hw c6
          have w1 := hw (g, t1) (by rw [r1]; simp)
          have b1 := h3 (g, t1) (by rw [r1]; simp)
          have b2 : l2 = [] → g + t1.length ≤ 95 := by
            intro e
            refine h4 (g, t1) ?_
            rw [r1, e]; simp
          have e4 : "    ".toList ++ (' ' :: back) = spaced ((4 + (g - a), t1) :: l2) ++ [newline] := by
            rw [r4, spaced, ← List.replicate_append_replicate]
            simp [List.replicate]
          have hll : l.length = l1.length + (l2.length + 1) := by rw [r1]; simp
          obtain ⟨text, i1, i2, i3⟩ := ih l2 (4 + (g - a)) t1 (by omega) w1.some w1.noSpace
            (fun p hp => hw p (by rw [r1]; simp [hp])) (by simp only at b1; omega)
            (fun e => by have := b2 e; omega) (fun p hp => h3 p (by rw [r1]; simp [hp]))
            (fun p hp => h4 p (by
              rw [r1]
              cases l2 with
              | nil => cases hp
              | cons x l2 => simpa using hp)) f (by omega)
          refine ⟨front ++ " +\n".toList ++ text, ?_, ?_, ?_⟩
          · unfold split
            rw [if_neg hlen, c1, ok_bind, c2, drop_front, e4, i1, ok_bind, List.reverse_reverse]
            rfl
          · have hwf : words front = t :: l1.map (·.2) := by
              have := words_first (n := n) ht hn (l := l1) (fun p hp => hw p (by rw [r1]; simp [hp])) a
              rw [← this, c5, r3, spaced]; simp
            have hnf : newline ∉ front := by
              intro hc
              have hm : newline ∈ spaced ((n, t) :: l) := by
                rw [c5, r3] at hc
                rw [spaced, r1, spaced_append, spaced]
                simp only [List.mem_append, List.mem_replicate] at hc ⊢
                rcases hc with (hc | hc) | (hc | hc)
                · exact .inl (.inl hc)
                · exact .inl (.inr hc)
                · exact .inr (.inl hc)
                · exact absurd hc.2 (by decide)
              exact newline_spaced _ hall hm
            have := Broken.more front text _ _ hnf c3 hwf (by simp) i2 (by
              rw [i3, spaced, Nat.add_comm, List.replicate_succ]; rfl)
            rw [r1]
            simpa using this
          · rw [c2]
            have : front ≠ [] := by
              intro e
              rw [e] at c4
              have := List.length_pos_iff.mpr ht
              simp only [List.length_append, List.length_replicate, List.length_nil] at c4
              omega
            cases front with
            | nil => exact absurd rfl this
            | cons x f => simp

end XsdirEntry

/-! ## Reading lines -/

namespace IStream

/-- A good stream behind `before` and in front of `rest`. -/
def at' (before rest : Str) : IStream := ⟨before ++ rest, before.length, false, false⟩

theorem at_good (b r : Str) : (at' b r).good = true := rfl
theorem at_tellg (b r : Str) : (at' b r).tellg = (some b.length, at' b r) := rfl

theorem getline_at {line : Str} (h : newline ∉ line) (cur b rest : Str) :
    (at' b (line ++ newline :: rest)).getline cur = (line, at' (b ++ line ++ [newline]) rest) := by
  have ht : (line ++ newline :: rest).takeWhile (· != newline) = line := by
    rw [List.takeWhile_append_of_pos (by intro c hc; simp; rintro rfl; exact h hc)]
    simp
  unfold getline
  rw [at_good]
  simp only [Bool.not_true, Bool.false_eq_true, if_false, at', List.drop_left, ht]
  rw [if_neg (by simp), if_neg (by simp)]
  simp
  omega

/-- At the end of the text. -/
theorem getline_end (cur b : Str) : (at' b []).getline cur = ([], ⟨b, b.length, true, true⟩) := by
  unfold getline
  rw [at_good]
  simp [at']

/-- A last line without newline. -/
theorem getline_last {line : Str} (h : newline ∉ line) (hne : line ≠ []) (cur b : Str) :
    (at' b line).getline cur = (line, ⟨b ++ line, (b ++ line).length, true, false⟩) := by
  have ht : line.takeWhile (· != newline) = line := by
    have := List.takeWhile_append_of_pos (p := (· != newline)) (l₁ := line) (l₂ := [])
      (by intro c hc; simp; rintro rfl; exact h hc)
    simpa using this
  unfold getline
  rw [at_good]
  simp only [Bool.not_true, Bool.false_eq_true, if_false, at', List.drop_left, ht]
  rw [if_neg hne]
  simp

end IStream

namespace XsdirEntry
open IStream

theorem skipComments_of {line : Str} (h : isComment line = false) (fuel : Nat) (st : IStream) :
    skipComments fuel line st = .ok (line, st) := by
  cases fuel with
  | zero => unfold skipComments; rw [if_neg (by simp [h])]
  | succ f => unfold skipComments; rw [if_neg (by simp [h])]

theorem readLine_at {line : Str} (h : newline ∉ line) (hc : isComment line = false) (b rest : Str) :
    readLine (at' b (line ++ newline :: rest)) = .ok (strip line, at' (b ++ line ++ [newline]) rest) := by
  unfold readLine
  rw [getline_at h]
  simp only
  rw [skipComments_of hc]
  rfl

theorem words_last : ∀ (s : Str) (c : Char), s.getLast? = some c → isSpace c = false →
    ∃ w, (words s).getLast? = some w ∧ w.getLast? = some c
  | [], c, h, _ => by cases h
  | [x], c, h, hc => by
      simp at h; subst h
      refine ⟨[x], ?_, rfl⟩
      rw [words, if_neg (by simp [hc])]; rfl
  | x :: y :: s, c, h, hc => by
      obtain ⟨w, h1, h2⟩ := words_last (y :: s) c (by simpa using h) hc
      have hne : words (y :: s) ≠ [] := by intro e; rw [e] at h1; cases h1
      rw [words]
      split
      · exact ⟨w, h1, h2⟩
      · unfold addWord
        simp only
        split
        · refine ⟨w, ?_, h2⟩
          rw [List.getLast?_cons, h1]; rfl
        · cases hw : words (y :: s) with
          | nil => exact absurd hw hne
          | cons u us =>
            rw [hw] at h1
            cases us with
            | nil =>
              simp at h1
              subst h1
              refine ⟨x :: u, rfl, ?_⟩
              cases u with
              | nil => cases h2
              | cons v u => simpa using h2
            | cons v us =>
              refine ⟨w, ?_, h2⟩
              simpa using h1

theorem strip_last {s : Str} (h : words s ≠ []) : ∃ w c, (words s).getLast? = some w ∧ w.getLast? = some c ∧
    (strip s).getLast? = some c := by
  have hne : strip s ≠ [] := by
    intro e
    rw [← words_strip, e] at h
    exact h rfl
  cases hl : (strip s).getLast? with
  | none => simp at hl; exact absurd hl hne
  | some c =>
    obtain ⟨w, h1, h2⟩ := words_last _ c hl ((strip_trim s).back c hl)
    rw [words_strip] at h1
    exact ⟨w, c, h1, h2, rfl⟩

theorem strip_plus {line : Str} (h : words line ≠ []) :
    strip (line ++ " +".toList) = line.dropWhile isSpace ++ " +".toList := by
  have hd : (line ++ " +".toList).dropWhile isSpace = line.dropWhile isSpace ++ " +".toList := by
    have hne : line.dropWhile isSpace ≠ [] := by
      intro e
      exact h (by rw [← words_dropWhile, e]; rfl)
    rw [List.dropWhile_append]
    cases hx : line.dropWhile isSpace with
    | nil => exact absurd hx hne
    | cons c t => simp
  unfold strip
  simp only [hd]
  rw [dropWhile_eq_self (s := (line.dropWhile isSpace ++ " +".toList).reverse) (by
    intro c hc; simp at hc; subst hc; decide), List.reverse_reverse]

/-- Broken lines are joined. -/
theorem continued_broken : ∀ {ws : List Str} {text : Str}, Broken ws text → ws ≠ [] →
    (∀ w, ws.getLast? = some w → w.getLast? ≠ some '+') → text.head? ≠ some '#' →
    ∀ (acc : Str), (acc = [] ∨ ∃ a, acc = a ++ [' ']) → ∀ (b rest : Str) (fuel : Nat), text.length ≤ fuel →
    ∃ line, (do
        let (next, st) ← readLine (at' b (text ++ rest))
        continued fuel (acc ++ next) st) = .ok (line, at' (b ++ text) rest) ∧ words line = words acc ++ ws := by
  intro ws text hbk
  have join : ∀ (acc : Str), (acc = [] ∨ ∃ a, acc = a ++ [' ']) → ∀ x, words (acc ++ x) = words acc ++ words x := by
    rintro acc (rfl | ⟨a, rfl⟩) x
    · rfl
    · rw [List.append_assoc, List.singleton_append, words_snoc_space a (by decide),
        words_append_space a (by simp; decide)]
  induction hbk with
  | last line ws hn hl hw _ =>
    intro hne hlast hhead acc hacc b rest fuel hfuel
    have hc : isComment line = false := by
      unfold isComment
      cases line with
      | nil => rfl
      | cons c l => simp at hhead ⊢; exact hhead
    obtain ⟨w, c, l1, l2, l3⟩ := strip_last (s := line) (by rw [hw]; exact hne)
    refine ⟨acc ++ strip line, ?_, ?_⟩
    · rw [List.append_assoc, List.singleton_append, readLine_at hn hc, ok_bind]
      simp only
      unfold continued
      have : (acc ++ strip line).getLast? = some c := by rw [List.getLast?_append, l3]; rfl
      rw [this]
      simp only
      rw [hw] at l1
      rw [if_neg (by simp; rintro rfl; exact hlast w l1 l2)]
      simp
    · rw [join acc hacc, words_strip, hw]
  | more line rst ws1 ws2 hn hl hw hne1 hr hb ih =>
    intro hne hlast hhead acc hacc b rest fuel hfuel
    have hc : isComment (line ++ " +".toList) = false := by
      unfold isComment
      cases line with
      | nil => rfl
      | cons c l => simp at hhead ⊢; exact hhead
    have hn' : newline ∉ line ++ " +".toList := by
      simp only [List.mem_append, not_or]
      exact ⟨hn, by decide⟩
    have hws2 : ws2 ≠ [] := hr.ne
    cases fuel with
    | zero => simp at hfuel
    | succ fuel =>
      obtain ⟨line2, r1, r2⟩ := ih hws2 (fun w hw => hlast w (by
          cases ws2 with
          | nil => exact absurd rfl hws2
          | cons x xs => rw [List.getLast?_append]; rw [hw]; rfl)) (by rw [hb]; decide)
        (acc ++ (line.dropWhile isSpace ++ [' ']) ++ [' ']) (.inr ⟨_, rfl⟩) (b ++ (line ++ " +".toList) ++ [newline]) rest fuel
        (by simp at hfuel; omega)
      refine ⟨line2, ?_, ?_⟩
      · rw [show line ++ " +\n".toList ++ rst ++ rest = (line ++ " +".toList) ++ newline :: (rst ++ rest) by
            simp [newline], readLine_at hn' hc, ok_bind]
        simp only
        unfold continued
        rw [strip_plus (by rw [hw]; exact hne1)]
        have hg : (acc ++ (line.dropWhile isSpace ++ " +".toList)).getLast? = some '+' := by
          rw [← List.append_assoc, List.getLast?_append]; rfl
        have hd : (acc ++ (line.dropWhile isSpace ++ " +".toList)).dropLast = acc ++ (line.dropWhile isSpace ++ [' ']) := by
          rw [show " +".toList = [' '] ++ ['+'] from rfl, ← List.append_assoc, ← List.append_assoc, List.dropLast_concat, List.append_assoc]
        rw [hg]
        simp only [beq_self_eq_true, if_true]
        rw [hd, r1]
        simp [newline]
      · rw [r2, words_append_space _ (by simp; decide), ← List.append_assoc acc,
          words_append_space _ (by simp; decide), join acc hacc, words_dropWhile, hw]
        simp

/-! ## The text of a stream does not change -/

theorem getline_content (cur : Str) (st : IStream) : (st.getline cur).2.content = st.content := by
  unfold IStream.getline
  split
  · rfl
  · simp only
    split
    · rfl
    · split <;> rfl

theorem skipComments_content : ∀ (fuel : Nat) (cur : Str) (st : IStream) {line : Str} {st' : IStream},
    skipComments fuel cur st = .ok (line, st') → st'.content = st.content
  | 0, cur, st, line, st', h => by
    unfold skipComments at h
    split at h
    · cases h
    · injection h with h; injection h with h1 h2; subst h2; rfl
  | fuel + 1, cur, st, line, st', h => by
    unfold skipComments at h
    split at h
    · rw [skipComments_content fuel _ _ h, getline_content]
    · injection h with h; injection h with h1 h2; subst h2; rfl

theorem readLine_content {st st' : IStream} {line : Str} (h : readLine st = .ok (line, st')) :
    st'.content = st.content := by
  unfold readLine at h
  simp only at h
  obtain ⟨⟨a, b⟩, h1, h2⟩ := bind_eq_ok.mp h
  injection h2 with h2; injection h2 with h2 h3; subst h3
  rw [skipComments_content _ _ _ h1, getline_content]

end XsdirEntry
end ACE
