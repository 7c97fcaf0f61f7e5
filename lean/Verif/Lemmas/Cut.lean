import Verif.Props.CutSpec
import Verif.Lemmas.Core
import Verif.Lemmas.Text

/-!
# Reading the beginning of a text
-/

namespace ACE.Cuts
open ACE Text

variable {α β γ : Type}

/-- What reading the beginning `p` of a text `s` gives, of which `x` is read and `r` is left. -/
inductive Outcome (f : Str → Res (α × Str)) (R : α → α → Nat → Prop) (s p : Str) (x : α) (r : Str) : Prop
  /-- everything that is read is there -/
  | whole (c p' : Str) (h1 : s = c ++ r) (h2 : p = c ++ p') (h3 : f p = .ok (x, p'))
  | refused (h : ∀ y, f p ≠ .ok y)
  /-- the last line is cut -/
  | last (x' : α) (before line cut more : Str) (h1 : f p = .ok (x', [])) (h2 : s = before ++ line ++ more)
      (h3 : p = before ++ cut) (h4 : cut <+: line) (h5 : newline ∉ line) (h6 : more = newline :: r ∨ (more = [] ∧ r = []))
      (h7 : R x x' cut.length)

/-- Reading by lines. -/
def Cut (f : Str → Res (α × Str)) (R : α → α → Nat → Prop) : Prop :=
  ∀ s x r, f s = .ok (x, r) → ∀ p, p <+: s → Outcome f R s p x r

theorem takeWhile_all {q : Char → Bool} : ∀ {l : Str}, (∀ c ∈ l, q c = true) → l.takeWhile q = l ∧ l.dropWhile q = [] :=
  fun {l} h => by
  induction l with
  | nil => exact ⟨rfl, rfl⟩
  | cons a l ih =>
    have ha := h a (List.mem_cons_self ..)
    obtain ⟨h1, h2⟩ := ih fun c hc => h c (List.mem_cons_of_mem _ hc)
    simp only [List.takeWhile_cons, List.dropWhile_cons, ha, if_true, h1, h2, and_self]

theorem mem_takeWhile {q : Char → Bool} {c : Char} : ∀ {l : Str}, c ∈ l.takeWhile q → q c = true
  | [], h => by cases h
  | a :: l, h => by
    rw [List.takeWhile_cons] at h
    split at h
    · rename_i ha
      rcases List.mem_cons.mp h with rfl | h
      · exact ha
      · exact mem_takeWhile h
    · cases h

theorem nextLine_cases {s l r : Str} (h : nextLine s = .ok (l, r)) :
    newline ∉ l ∧ s ≠ [] ∧ (s = l ++ newline :: r ∨ (s = l ∧ r = [])) := by
  cases s with
  | nil => cases h
  | cons a s =>
    have h' : ((a :: s).takeWhile (· != newline), ((a :: s).dropWhile (· != newline)).drop 1) = (l, r) := Except.ok.inj h
    obtain ⟨rfl, rfl⟩ := Prod.mk.inj h'
    refine ⟨fun hn => ?_, List.cons_ne_nil _ _, ?_⟩
    · have := mem_takeWhile hn
      simp at this
    · cases hd : (a :: s).dropWhile (· != newline) with
      | nil =>
        right
        have := List.takeWhile_append_dropWhile (p := (· != newline)) (l := a :: s)
        rw [hd, List.append_nil] at this
        exact ⟨this.symm, rfl⟩
      | cons c t =>
        left
        have h1 := List.takeWhile_append_dropWhile (p := (· != newline)) (l := a :: s)
        have h2 := List.head_dropWhile_not (p := (· != newline)) (l := a :: s) (by rw [hd]; exact List.cons_ne_nil _ _)
        simp only [hd, List.head_cons, bne_eq_false_iff_eq] at h2
        rw [hd, h2] at h1
        exact h1.symm

theorem nextLine_alone {l : Str} (h : newline ∉ l) (h0 : l ≠ []) : nextLine l = .ok (l, []) := by
  have a : ∀ c ∈ l, (c != newline) = true := fun c hc => by
    rw [bne_iff_ne]; rintro rfl; exact h hc
  cases l with
  | nil => exact absurd rfl h0
  | cons c l =>
    show Except.ok (((c :: l).takeWhile (· != newline), ((c :: l).dropWhile (· != newline)).drop 1)) = _
    rw [(takeWhile_all a).1, (takeWhile_all a).2]
    rfl

theorem nextLine_cut : Cut nextLine fun l l' k => l' <+: l ∧ l'.length = k := by
  intro s l r h p hp
  obtain ⟨hn, h0, hs⟩ := nextLine_cases h
  by_cases hle : p.length ≤ l.length
  · have hpl : p <+: l := by
      rcases hs with rfl | ⟨rfl, _⟩
      · exact List.prefix_of_prefix_length_le hp (List.prefix_append _ _) hle
      · exact hp
    cases hpe : p with
    | nil => exact .refused fun y e => by cases e
    | cons c q =>
      rw [← hpe]
      have hp0 : p ≠ [] := by rw [hpe]; exact List.cons_ne_nil _ _
      have hpn : newline ∉ p := fun e => hn (hpl.subset e)
      rcases hs with hs | ⟨hs, hr⟩
      · exact .last p [] l p (newline :: r) (nextLine_alone hpn hp0) (by rw [hs]; rfl) rfl hpl hn (.inl rfl) ⟨hpl, rfl⟩
      · exact .last p [] l p [] (nextLine_alone hpn hp0) (by rw [hs, List.nil_append, List.append_nil]) rfl hpl hn
          (.inr ⟨rfl, hr⟩) ⟨hpl, rfl⟩
  · rcases hs with hs | ⟨hs, hr⟩
    · obtain ⟨t, ht⟩ := hp
      have hlp : l <+: p := List.prefix_of_prefix_length_le (l₃ := s) (by rw [hs]; exact List.prefix_append _ _) ⟨t, ht⟩
        (by omega)
      obtain ⟨q, rfl⟩ := hlp
      rw [hs, List.append_assoc] at ht
      have ht := List.append_cancel_left ht
      cases q with
      | nil => simp at hle
      | cons c q =>
        rw [List.cons_append] at ht
        obtain ⟨rfl, ht⟩ := List.cons.inj ht
        exact .whole (l ++ [newline]) q (by rw [hs]; simp) (by simp) (nextLine_append hn q)
    · rw [hs] at hp
      exact absurd hp.length_le hle

/-- Reading that is not the last: of the beginning of a text it reads the same, or all that is left. -/
def Start (f : Str → Res (α × Str)) : Prop :=
  ∀ s x r, f s = .ok (x, r) → ∀ p, p <+: s →
    (∃ c p', s = c ++ r ∧ p = c ++ p' ∧ f p = .ok (x, p')) ∨ ∀ y p', f p = .ok (y, p') → p' = []

theorem Cut.start {f : Str → Res (α × Str)} {R : α → α → Nat → Prop} (hf : Cut f R) : Start f := fun s x r e p hp => by
  rcases hf s x r e p hp with ⟨c, p', a1, a2, a3⟩ | a | ⟨x', before, line, cut, more, b1, b2, b3, b4, b5, b6, b7⟩
  · exact .inl ⟨c, p', a1, a2, a3⟩
  · exact .inr fun y p' e => absurd e (a _)
  · refine .inr fun y p' e => ?_
    rw [b1] at e
    exact (Prod.mk.inj (Except.ok.inj e)).2.symm

theorem Start.bind {f : Str → Res (α × Str)} {g : α → Str → Res (β × Str)} (hf : Start f) (hg : ∀ x, Start (g x))
    (h0 : ∀ x y r, g x [] = .ok (y, r) → r = []) : Start (fun s => f s >>= fun a => g a.1 a.2) := by
  intro s y r h p hp
  obtain ⟨⟨x, r1⟩, h1, h2⟩ := bind_eq_ok.mp h
  rcases hf s x r1 h1 p hp with ⟨c, p', a1, a2, a3⟩ | a
  · have hp' : p' <+: r1 := by
      rw [a1, a2] at hp
      exact (List.prefix_append_right_inj c).mp hp
    rcases hg x r1 y r h2 p' hp' with ⟨c2, p2, d1, d2, d3⟩ | d
    · exact .inl ⟨c ++ c2, p2, by rw [a1, d1, List.append_assoc], by rw [a2, d2, List.append_assoc],
        by simp only [a3, ok_bind]; exact d3⟩
    · refine .inr fun z q e => ?_
      simp only [a3, ok_bind] at e
      exact d z q e
  · refine .inr fun z q e => ?_
    obtain ⟨⟨x', p'⟩, e1, e2⟩ := bind_eq_ok.mp e
    obtain rfl := a x' p' e1
    exact h0 x' z q e2

theorem Start.map {f : Str → Res (α × Str)} {k : α → Res β} (hf : Start f) :
    Start (fun s => f s >>= fun a => k a.1 >>= fun y => .ok (y, a.2)) :=
  Start.bind (g := fun x s => k x >>= fun y => .ok (y, s)) hf
    (fun x s y r e p _ => by
      obtain ⟨y1, h3, h4⟩ := bind_eq_ok.mp e
      obtain ⟨rfl, rfl⟩ := Prod.mk.inj (Except.ok.inj h4)
      exact .inl ⟨[], p, rfl, rfl, by rw [h3]; rfl⟩)
    fun x y r e => by
      obtain ⟨y1, h3, h4⟩ := bind_eq_ok.mp e
      exact (Prod.mk.inj (Except.ok.inj h4)).2.symm

theorem Start.before {a : Res γ} {g : γ → Str → Res (α × Str)} (hg : ∀ y, Start (g y)) :
    Start (fun s => a >>= fun y => g y s) := by
  intro s x r e p hp
  cases a with
  | error _ => cases e
  | ok y => exact hg y s x r e p hp

theorem Cut.bind {f : Str → Res (α × Str)} {g : α → Str → Res (β × Str)}
    {S : α → β → β → Nat → Prop} {T : β → β → Nat → Prop} (hf : Start f)
    (hg : ∀ x, Cut (g x) (S x)) (h0 : ∀ x y, g x [] ≠ .ok y) (hT : ∀ x y y' k, S x y y' k → T y y' k) :
    Cut (fun s => f s >>= fun a => g a.1 a.2) T := by
  intro s y r h p hp
  obtain ⟨⟨x, r1⟩, h1, h2⟩ := bind_eq_ok.mp h
  rcases hf s x r1 h1 p hp with ⟨c, p', a1, a2, a3⟩ | a
  · have hp' : p' <+: r1 := by
      rw [a1, a2] at hp
      exact (List.prefix_append_right_inj c).mp hp
    rcases hg x r1 y r h2 p' hp' with ⟨c2, p2, d1, d2, d3⟩ | d | ⟨y', before, line, cut, more, b1, b2, b3, b4, b5, b6, b7⟩
    · exact .whole (c ++ c2) p2 (by rw [a1, d1, List.append_assoc]) (by rw [a2, d2, List.append_assoc])
        (by simp only [a3, ok_bind]; exact d3)
    · exact .refused fun z e => by
        simp only [a3, ok_bind] at e
        exact d z e
    · exact .last y' (c ++ before) line cut more (by simp only [a3, ok_bind]; exact b1)
        (by rw [a1, b2]; simp only [List.append_assoc]) (by rw [a2, b3, List.append_assoc]) b4 b5 b6 (hT _ _ _ _ b7)
  · exact .refused fun z e => by
      obtain ⟨⟨x', p'⟩, e1, e2⟩ := bind_eq_ok.mp e
      obtain rfl := a x' p' e1
      exact h0 x' z e2

/-- Reading, then a computation from what was read. -/
theorem Cut.map {f : Str → Res (α × Str)} {k : α → Res β} {R : α → α → Nat → Prop} {T : β → β → Nat → Prop} (hf : Cut f R)
    (hT : ∀ x x' y y' n, R x x' n → k x = .ok y → k x' = .ok y' → T y y' n) :
    Cut (fun s => f s >>= fun a => k a.1 >>= fun y => .ok (y, a.2)) T := by
  intro s y r h p hp
  obtain ⟨⟨x, r1⟩, h1, h2⟩ := bind_eq_ok.mp h
  obtain ⟨y1, h3, h4⟩ := bind_eq_ok.mp h2
  obtain ⟨rfl, rfl⟩ := Prod.mk.inj (Except.ok.inj h4)
  have h3 : k x = .ok y1 := h3
  rcases hf s x r1 h1 p hp with ⟨c, p', a1, a2, a3⟩ | a | ⟨x', before, line, cut, more, b1, b2, b3, b4, b5, b6, b7⟩
  · exact .whole c p' a1 a2 (by simp only [a3, ok_bind]; rw [h3]; rfl)
  · exact .refused fun z e => by
      obtain ⟨q, e1, _⟩ := bind_eq_ok.mp e
      exact a q e1
  · rcases hk : k x' with e' | y'
    · exact .refused fun z e => by
        simp only [b1, ok_bind, hk] at e
        cases e
    · exact .last y' before line cut more (by simp only [b1, ok_bind, hk]) b2 b3 b4 b5 b6 (hT _ _ _ _ _ b7 h3 hk)

/-- Nothing is read. -/
theorem Cut.pure (x : α) {R : α → α → Nat → Prop} : Cut (fun s => .ok (x, s)) R := fun s y r h p _ => by
  obtain ⟨rfl, rfl⟩ := Prod.mk.inj (Except.ok.inj h)
  exact .whole [] p rfl rfl rfl

theorem Cut.weaken {f : Str → Res (α × Str)} {R T : α → α → Nat → Prop} (hf : Cut f R) (h : ∀ x x' k, R x x' k → T x x' k) :
    Cut f T := fun s x r e p hp => by
  rcases hf s x r e p hp with ⟨c, p', a1, a2, a3⟩ | a | ⟨x', before, line, cut, more, b1, b2, b3, b4, b5, b6, b7⟩
  · exact .whole c p' a1 a2 a3
  · exact .refused a
  · exact .last x' before line cut more b1 b2 b3 b4 b5 b6 (h _ _ _ b7)

/-- Lines with a number of values each. -/
def lines (dec : Str → Res (List α)) : Nat → Str → Res (List α × Str)
  | 0, text => .ok ([], text)
  | n + 1, text => nextLine text >>= fun a => (dec a.1 >>= fun v => lines dec n a.2 >>= fun m => .ok (v ++ m.1, m.2))

/-- The `m * q` values before the last line are the same, those of the last line are from the cut line. -/
def LastLine (dec : Str → Res (List α)) (m q : Nat) (x x' : List α) (k : Nat) : Prop :=
  ∃ init v v' line cut, init.length = m * q ∧ x = init ++ v ∧ x' = init ++ v' ∧ dec line = .ok v ∧ dec cut = .ok v' ∧ cut <+: line ∧ cut.length = k

theorem lines_nil (dec : Str → Res (List α)) (n : Nat) (y) : lines dec (n + 1) [] ≠ .ok y := fun e => by cases e

theorem lines_cut (dec : Str → Res (List α)) (m : Nat) (hm : ∀ l v, dec l = .ok v → v.length = m) :
    ∀ n, Cut (lines dec n) (LastLine dec m (n - 1))
  | 0 => Cut.pure _
  | 1 => by
    have h : Cut (fun s => nextLine s >>= fun a => dec a.1 >>= fun y => .ok (y, a.2)) (LastLine dec m 0) :=
      Cut.map nextLine_cut fun l l' v v' k ⟨h1, h2⟩ e e' => ⟨[], v, v', l, l', rfl, rfl, rfl, e, e', h1, h2⟩
    intro s x r e p hp
    have key (t : Str) : lines dec 1 t = (nextLine t >>= fun a => dec a.1 >>= fun y => .ok (y, a.2)) := by
      unfold lines
      simp only [lines, ok_bind, List.append_nil]
    have hk : lines dec 1 = fun s => nextLine s >>= fun a => dec a.1 >>= fun y => .ok (y, a.2) := funext key
    rw [hk] at e ⊢
    exact h s x r e p hp
  | n + 2 => by
    have ih := lines_cut dec m hm (n + 1)
    refine Cut.bind (g := fun l text => dec l >>= fun v => lines dec (n + 1) text >>= fun m => .ok (v ++ m.1, m.2))
      (S := fun _ => LastLine dec m (n + 1)) nextLine_cut.start (fun l => ?_) (fun l y e => ?_) fun _ _ _ _ h => h
    · intro s x r e p hp
      obtain ⟨v, hv, e⟩ := bind_eq_ok.mp e
      simp only [hv, ok_bind] at e ⊢
      have h2 : Cut (fun s => lines dec (n + 1) s >>= fun m => (.ok (v ++ m.1) : Res _) >>= fun y => .ok (y, m.2))
          (LastLine dec m (n + 1)) := by
        refine Cut.map (k := fun m => .ok (v ++ m)) ih fun a a' y y' k hl e e' => ?_
        · obtain ⟨i, w, w', line, cut, c0, c1, c2, c3, c4, c5, c6⟩ := hl
          obtain rfl := Except.ok.inj e
          obtain rfl := Except.ok.inj e'
          refine ⟨v ++ i, w, w', line, cut, ?_, by rw [c1, List.append_assoc], by rw [c2, List.append_assoc], c3, c4, c5, c6⟩
          rw [List.length_append, c0, hm l v hv, Nat.add_sub_cancel, Nat.mul_succ, Nat.add_comm]
      rcases h2 s x r e p hp with ⟨c, p', a1, a2, a3⟩ | a | ⟨x', before, line, cut, more, b1, b2, b3, b4, b5, b6, b7⟩
      · exact .whole c p' a1 a2 a3
      · exact .refused a
      · exact .last x' before line cut more b1 b2 b3 b4 b5 b6 b7
    · obtain ⟨v, hv, e⟩ := bind_eq_ok.mp e
      obtain ⟨m, hm, _⟩ := bind_eq_ok.mp e
      exact lines_nil dec n m hm

/-- A value that does not depend on the text. -/
theorem Cut.before {a : Res γ} {g : γ → Str → Res (α × Str)} {R : α → α → Nat → Prop} (hg : ∀ y, Cut (g y) R) :
    Cut (fun s => a >>= fun y => g y s) R := by
  intro s x r e p hp
  cases a with
  | error _ => cases e
  | ok y => exact hg y s x r e p hp

end ACE.Cuts
