import Verif.Lemmas.CutTable
import Verif.Props.LineSpec
import Verif.Props.C41

/-!
# Lemmas: the lines of a text
-/

namespace ACE.Lines
open ACE ACE.Text ACE.Cuts ACE.Props

theorem linesOf_nil : ∀ {s : Str}, linesOf s = [] → s = []
  | [], _ => rfl
  | c :: s, h => by
    unfold linesOf at h
    split at h
    · cases h
    · split at h <;> cases h

theorem linesOf_line : ∀ (l s : Str), newline ∉ l → linesOf (l ++ newline :: s) = l :: linesOf s
  | [], s, _ => by simp [linesOf]
  | c :: l, s, h => by
    rw [List.mem_cons, not_or] at h
    rw [List.cons_append, linesOf, if_neg (Ne.symm h.1), linesOf_line l s h.2]

theorem linesOf_last : ∀ (l : Str), newline ∉ l → l ≠ [] → linesOf l = [l]
  | [], _, h => absurd rfl h
  | [c], h, _ => by
    rw [linesOf, if_neg (by simpa [eq_comm] using h)]
    rfl
  | c :: d :: l, h, _ => by
    rw [List.mem_cons, not_or] at h
    rw [linesOf, if_neg (Ne.symm h.1), linesOf_last (d :: l) h.2 (List.cons_ne_nil _ _)]

/-- The next line is the first line. -/
theorem nextLine_lines {s l r : Str} (h : nextLine s = .ok (l, r)) : linesOf s = l :: linesOf r := by
  obtain ⟨h1, h2, h3 | ⟨h3, h4⟩⟩ := nextLine_cases h
  · rw [h3, linesOf_line _ _ h1]
  · subst h3 h4
    rw [linesOf_last _ h1 h2]
    rfl

theorem nextLine_some {s : Str} (h : s ≠ []) : ∃ l r, nextLine s = .ok (l, r) := by
  cases s with
  | nil => exact absurd rfl h
  | cons c s => exact ⟨_, _, rfl⟩

theorem left_same {s t : Str} (h : SameLine s t) (w : Nat) : left s w = left t w := by
  have key (s : Str) (n : Nat) : left s w = (s ++ List.replicate (n + w) ' ').take w := by
    unfold left
    rw [List.take_append, List.take_replicate]
    congr 2
    omega
  obtain ⟨a, b, e⟩ := h
  have e2 : s ++ List.replicate (a + w) ' ' = t ++ List.replicate (b + w) ' ' := by
    rw [← List.replicate_append_replicate, ← List.replicate_append_replicate, ← List.append_assoc, e, List.append_assoc]
  rw [key s a, key t b, e2]

theorem column_same {l l' : Str} (h : SameLine l l') (i w : Nat) : column l i w = column l' i w := by
  obtain ⟨a, b, e⟩ := h
  refine left_same ⟨a - (i - l.length), b - (i - l'.length), ?_⟩ w
  have := congrArg (List.drop i) e
  simpa only [List.drop_append, List.drop_replicate] using this

/-- Results that are the same, with texts in relation; with `E` errors are the same too. -/
structure Alike (Q : Str → Str → Prop) (E : Prop) (r r' : Res (α × Str)) : Prop where
  ok : ∀ x a, r = .ok (x, a) → ∃ a', r' = .ok (x, a') ∧ Q a a'
  error : E → ∀ e, r = .error e → r' = .error e

/-- The next lines of texts in relation are the same up to blanks at their ends, and the texts behind them are in
relation. -/
structure Next (Q : Str → Str → Prop) (E : Prop) : Prop where
  ok : ∀ s s', Q s s' → ∀ l r, nextLine s = .ok (l, r) → ∃ l' r', nextLine s' = .ok (l', r') ∧ SameLine l l' ∧ Q r r'
  error : E → ∀ s s', Q s s' → s = [] → s' = []

variable {Q : Str → Str → Prop} {E : Prop}

theorem Alike.pure (x : α) {s s' : Str} (h : Q s s') : Alike Q E (.ok (x, s)) (.ok (x, s')) where
  ok := fun _ _ e => by
    obtain ⟨rfl, rfl⟩ := Prod.mk.inj (Except.ok.inj e)
    exact ⟨_, rfl, h⟩
  error := fun _ _ e => by cases e

theorem Alike.bind {r r' : Res (α × Str)} {g g' : α × Str → Res (β × Str)} (h : Alike Q E r r')
    (hg : ∀ x a a', Q a a' → Alike Q E (g (x, a)) (g' (x, a'))) : Alike Q E (r >>= g) (r' >>= g') where
  ok := fun y b e => by
    obtain ⟨⟨x, a⟩, e1, e2⟩ := bind_eq_ok.mp e
    obtain ⟨a', e3, hq⟩ := h.ok x a e1
    obtain ⟨b', e4, hq'⟩ := (hg x a a' hq).ok y b e2
    exact ⟨b', by rw [e3]; exact e4, hq'⟩
  error := fun hE er e => by
    cases hr : r with
    | error e' =>
      rw [hr] at e
      rw [h.error hE e' hr]
      exact e
    | ok xa =>
      obtain ⟨x, a⟩ := xa
      obtain ⟨a', e3, hq⟩ := h.ok x a hr
      rw [hr] at e
      rw [e3]
      exact (hg x a a' hq).error hE er e

theorem Alike.same {m : Res α} {g g' : α → Res (β × Str)} (hg : ∀ x, Alike Q E (g x) (g' x)) :
    Alike Q E (m >>= g) (m >>= g') := by
  cases m with
  | error e => exact ⟨fun _ _ e => (by cases e), fun _ _ e => e⟩
  | ok x => exact hg x

/-- A line is read, and what is made of it depends on its columns only. -/
theorem Alike.line (hn : Next Q E) {s s' : Str} (h : Q s s') {g g' : Str × Str → Res (β × Str)}
    (hg : ∀ l l' a a', SameLine l l' → Q a a' → Alike Q E (g (l, a)) (g' (l', a'))) :
    Alike Q E (nextLine s >>= g) (nextLine s' >>= g') := by
  cases s with
  | nil =>
    refine ⟨fun _ _ e => (by cases e), fun hE e he => ?_⟩
    rw [hn.error hE _ _ h rfl]
    exact he
  | cons c s =>
    obtain ⟨l, r, e⟩ := nextLine_some (List.cons_ne_nil c s)
    obtain ⟨l', r', e', hl, hr⟩ := hn.ok _ _ h l r e
    rw [e, e']
    exact hg l l' r r' hl hr

theorem izaw (F : Formats) (hn : Next Q E) : ∀ (n : Nat) {s s' : Str}, Q s s' →
    Alike Q E (TableData.parseIZAW F n s) (TableData.parseIZAW F n s')
  | 0, _, _, h => .pure _ h
  | n + 1, s, s', h => by
    unfold TableData.parseIZAW
    refine .line hn h fun l l' a a' hl ha => ?_
    have : TableData.parsePair F l = TableData.parsePair F l' := by
      funext i
      unfold TableData.parsePair
      rw [column_same hl, column_same hl]
    dsimp only
    rw [this]
    exact .same fun x => .bind (izaw F hn n ha) fun y b b' hb => .pure _ hb

theorem ints (hn : Next Q E) : ∀ (n : Nat) {s s' : Str}, Q s s' →
    Alike Q E (TableData.parseInts n s) (TableData.parseInts n s')
  | 0, _, _, h => .pure _ h
  | n + 1, s, s', h => by
    unfold TableData.parseInts
    refine .line hn h fun l l' a a' hl ha => ?_
    dsimp only
    simp only [column_same hl]
    exact .same fun x => .bind (ints hn n ha) fun y b b' hb => .pure _ hb

theorem words_same (F : Formats) {l l' : Str} (h : SameLine l l') (n : Nat) :
    TableData.parseWords F l n = TableData.parseWords F l' n := by
  unfold TableData.parseWords
  simp only [column_same h]

theorem wordLines (F : Formats) (hn : Next Q E) : ∀ (n : Nat) {s s' : Str}, Q s s' →
    Alike Q E (TableData.parseLines F n s) (TableData.parseLines F n s')
  | 0, _, _, h => .pure _ h
  | n + 1, s, s', h => by
    unfold TableData.parseLines
    refine .line hn h fun l l' a a' hl ha => ?_
    dsimp only
    rw [words_same F hl]
    exact .same fun x => .bind (wordLines F hn n ha) fun y b b' hb => .pure _ hb

theorem xss (F : Formats) (hn : Next Q E) (size : Int) {s s' : Str} (h : Q s s') :
    Alike Q E (TableData.parseXSS F size s) (TableData.parseXSS F size s') := by
  unfold TableData.parseXSS
  refine .same fun _ => .bind (wordLines F hn _ h) fun x a a' ha => .bind ?_ fun y b b' hb => .pure _ hb
  unfold TableData.parseLast
  split
  · refine .line hn ha fun l l' b b' hl hb => ?_
    dsimp only
    rw [words_same F hl]
    exact .same fun x => .pure _ hb
  · exact .pure _ ha

theorem data (F : Formats) (hn : Next Q E) {s s' : Str} (h : Q s s') :
    Alike Q E (TableData.parse F s) (TableData.parse F s') := by
  unfold TableData.parse
  exact .bind (izaw F hn 4 h) fun x a a' ha => .bind (ints hn 2 ha) fun y b b' hb => .bind (ints hn 4 hb) fun z c c' hc =>
    .bind (xss F hn _ hc) fun w d d' hd => .pure _ hd

theorem header (F : Formats) (hn : Next Q E) {s s' : Str} (h : Q s s') :
    Alike Q E (Header.parse F s) (Header.parse F s') := by
  unfold Header.parse
  refine .line hn h fun l l' a a' hl ha => ?_
  dsimp only
  simp only [column_same hl]
  refine .same fun _ => .same fun _ => .same fun _ => .same fun _ => .line hn ha fun m m' b b' hm hb => ?_
  dsimp only
  simp only [column_same hm]
  exact .pure _ hb

theorem comments (hn : Next Q E) : ∀ (n : Nat) {s s' : Str}, Q s s' →
    Alike Q E (Header201.parseComments n s) (Header201.parseComments n s')
  | 0, _, _, h => .pure _ h
  | n + 1, s, s', h => by
    unfold Header201.parseComments
    refine .line hn h fun l l' a a' hl ha => ?_
    dsimp only
    simp only [column_same hl]
    exact .bind (comments hn n ha) fun y b b' hb => .pure _ hb

theorem header201 (F : Formats) (hn : Next Q E) {s s' : Str} (h : Q s s') :
    Alike Q E (Header201.parse F s) (Header201.parse F s') := by
  unfold Header201.parse
  refine .line hn h fun l l' a a' hl ha => ?_
  dsimp only
  simp only [column_same hl]
  refine .same fun _ => .line hn ha fun m m' b b' hm hb => ?_
  dsimp only
  simp only [column_same hm]
  exact .same fun _ => .same fun _ => .same fun _ => .same fun _ => .bind (comments hn _ hb) fun x c c' hc => .pure _ hc

theorem table (F : Formats) (hn : Next Q E) {s s' : Str} (h : Q s s') : Alike Q E (Table.parse F s) (Table.parse F s') := by
  unfold Table.parse
  refine .bind ?_ fun x a a' ha => .bind (data F hn ha) fun y b b' hb => .pure _ hb
  unfold Table.parseHeader
  cases s with
  | nil =>
    refine ⟨fun _ _ e => (by cases e), fun hE e he => ?_⟩
    rw [hn.error hE _ _ h rfl]
    exact he
  | cons c s =>
    have hv : Table.readVersion (c :: s) = Table.readVersion s' := by
      obtain ⟨l, r, e⟩ := nextLine_some (List.cons_ne_nil c s)
      obtain ⟨l', r', e', hl, hr⟩ := hn.ok _ _ h l r e
      unfold Table.readVersion
      rw [e, e', ok_bind, ok_bind]
      dsimp only
      rw [column_same hl]
    rw [hv]
    refine .same fun v => ?_
    split
    · exact .bind (header201 F hn h) fun y b b' hb => .pure _ hb
    · exact .bind (header F hn h) fun y b b' hb => .pure _ hb

theorem next_lines : Next SameLines True where
  ok := fun s s' h l r e => by
    obtain ⟨h1, h2⟩ := h
    rw [nextLine_lines e] at h1 h2
    cases h' : linesOf s' with
    | nil => rw [h'] at h1; cases h1
    | cons m ms =>
      rw [h'] at h1 h2
      have hs : s' ≠ [] := by rintro rfl; cases h'
      obtain ⟨l', r', e'⟩ := nextLine_some hs
      have := nextLine_lines e'
      rw [h'] at this
      obtain ⟨rfl, rfl⟩ := List.cons.inj this
      exact ⟨m, r', e', h2 0 l m rfl rfl, Nat.succ.inj h1, fun i => h2 (i + 1)⟩
  error := fun _ s s' h e => by
    subst e
    exact linesOf_nil (List.length_eq_zero_iff.mp h.1.symm)

/-- A text that ends with a newline, and the same with more behind it. -/
def Longer (more s s' : Str) : Prop := s' = s ++ more ∧ (s = [] ∨ s.getLast? = some newline)

theorem next_longer (more : Str) : Next (Longer more) False where
  ok := fun s s' ⟨h1, h2⟩ l r e => by
    obtain ⟨a1, a2, a3 | ⟨a3, a4⟩⟩ := nextLine_cases e
    · refine ⟨l, r ++ more, ?_, ⟨0, 0, rfl⟩, rfl, ?_⟩
      · rw [h1, a3, List.append_assoc, List.cons_append]
        exact nextLine_append a1 _
      · rcases h2 with h2 | h2
        · exact absurd h2 a2
        · rw [a3] at h2
          cases r with
          | nil => exact .inl rfl
          | cons c r => 
            refine .inr ?_
            rw [List.getLast?_append, List.getLast?_cons_cons] at h2
            cases hl : (c :: r).getLast? with
            | none => exact absurd (List.getLast?_eq_none_iff.mp hl) (List.cons_ne_nil _ _)
            | some d => rw [hl] at h2; exact h2
    · subst a3 a4
      rcases h2 with h2 | h2
      · exact absurd h2 a2
      · exact absurd (List.mem_of_getLast? h2) a1
  error := fun h => h.elim

theorem tables_same (F : Formats) : ∀ (n m : Nat) (s s' : Str), SameLines s s' → s.length ≤ n → s'.length ≤ m →
    Table.tables F n s = Table.tables F m s' := by
  intro n
  induction n with
  | zero =>
    intro m s s' h hn hm
    obtain rfl : s = [] := List.length_eq_zero_iff.mp (by omega)
    obtain rfl := next_lines.error trivial _ _ h rfl
    simp [Table.tables]
  | succ n ih =>
    intro m s s' h hn hm
    cases s with
    | nil =>
      obtain rfl := next_lines.error trivial _ _ h rfl
      simp [Table.tables]
    | cons c s =>
      cases s' with
      | nil => exact absurd (linesOf_nil (List.length_eq_zero_iff.mp h.1)) (List.cons_ne_nil _ _)
      | cons c' s' =>
        cases m with
        | zero => simp at hm
        | succ m =>
          unfold Table.tables
          cases hp : Table.parse F (c :: s) with
          | error e => rw [(table F next_lines h).error trivial e hp]; rfl
          | ok r =>
            obtain ⟨t, a⟩ := r
            obtain ⟨a', e', ha⟩ := (table F next_lines h).ok t a hp
            have h1 := C41.parse_shorter hp
            have h2 := C41.parse_shorter e'
            rw [e', ok_bind, ok_bind]
            simp only [List.length_cons] at hn hm h1 h2 ⊢
            rw [ih m a a' ha (by omega) (by omega)]

theorem tables_longer (F : Formats) (more : Str) : ∀ (n m : Nat) (s : Str) (l : List Table),
    (s = [] ∨ s.getLast? = some newline) → Table.tables F n s = .ok l → (s ++ more).length ≤ m →
    Table.tables F m (s ++ more) = Table.tables F m more >>= fun l' => .ok (l ++ l') := by
  intro n
  induction n with
  | zero =>
    intro m s l h hn hm
    cases s with
    | nil =>
      obtain rfl : [] = l := Except.ok.inj hn
      rw [List.nil_append]
      cases Table.tables F m more <;> rfl
    | cons c s => cases hn
  | succ n ih =>
    intro m s l h hn hm
    cases s with
    | nil =>
      obtain rfl : [] = l := Except.ok.inj hn
      rw [List.nil_append]
      cases Table.tables F m more <;> rfl
    | cons c s =>
      obtain ⟨⟨t, a⟩, h1, h2⟩ := bind_eq_ok.mp hn
      obtain ⟨ts, h3, h4⟩ := bind_eq_ok.mp h2
      obtain rfl : t :: ts = l := Except.ok.inj h4
      obtain ⟨a', e', rfl, ha⟩ := (table F (next_longer more) ⟨rfl, h⟩).ok t a h1
      cases m with
      | zero => simp at hm
      | succ m =>
        have h5 := C41.parse_shorter e'
        simp only [List.length_append, List.length_cons] at hm h5
        have key : Table.tables F (m + 1) more = Table.tables F m more := by
          rw [C41_ends F _ more (by omega), C41_ends F _ more (by omega)]
        rw [key]
        show (Table.parse F (c :: s ++ more) >>= fun b => Table.tables F m b.2 >>= fun l => .ok (b.1 :: l)) = _
        rw [e', ok_bind]
        dsimp only
        rw [ih m a ts ha h3 (by simp only [List.length_append]; omega)]
        cases Table.tables F m more <;> rfl

end ACE.Lines
