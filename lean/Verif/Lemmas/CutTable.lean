import Verif.Lemmas.Cut
import Verif.Props.C63

/-!
# Reading the beginning of the text of a table
-/

namespace ACE.Cuts
open ACE Text TableData

theorem mapM_length {α β : Type} {f : α → Res β} {l : List α} {v : List β} (h : l.mapM f = .ok v) : v.length = l.length := by
  induction l generalizing v with
  | nil => rw [List.mapM_nil] at h; obtain rfl := Except.ok.inj h; rfl
  | cons a l ih =>
    rw [List.mapM_cons] at h
    obtain ⟨b, _, h⟩ := bind_eq_ok.mp h
    obtain ⟨bs, h2, h⟩ := bind_eq_ok.mp h
    obtain rfl := Except.ok.inj h
    simp [ih h2]

theorem words_length {F : Formats} {line : Str} {n : Nat} {w : Words} (h : parseWords F line n = .ok w) : w.length = n := by
  unfold parseWords at h
  rw [mapM_length h, List.length_range]

theorem words_get {F : Formats} {line : Str} {n : Nat} {w : Words} (h : parseWords F line n = .ok w) {i : Nat} (hi : i < n) :
    ∃ x, F.read (column line (20 * i) 20) = .ok x ∧ w[i]? = some x := by
  have hl := words_length h
  obtain ⟨a, h1, h2⟩ := Props.C63.mapM_get _ _ _ h i w[i] (List.getElem?_eq_getElem (by omega))
  rw [List.getElem?_range hi] at h1
  obtain rfl := Option.some.inj h1
  exact ⟨_, h2, List.getElem?_eq_getElem (by omega)⟩

theorem column_kept {line cut : Str} (h : cut <+: line) {i w : Nat} (hk : i + w ≤ cut.length) :
    column cut i w = column line i w := by
  obtain ⟨t, rfl⟩ := h
  unfold column left
  rw [List.drop_append_of_le_length (by omega), List.take_append_of_le_length (by rw [List.length_drop]; omega)]
  congr 2
  simp only [List.length_append, List.length_drop]
  omega

theorem column_lost {F : Formats} {cut : Str} {i w : Nat} (hk : cut.length ≤ i) : F.read (column cut i w) = .ok (Dbl.ofNat 0) := by
  have hs : strip (column cut i w) = [] := by
    unfold column left strip
    rw [List.drop_eq_nil_of_le hk, List.take_nil, List.nil_append]
    have : ((List.replicate (w - ([] : Str).length) ' ').dropWhile isSpace) = [] :=
      (takeWhile_all fun c hc => by rw [List.eq_of_mem_replicate hc]; decide).2
    rw [this]
    rfl
  unfold Formats.read
  rw [hs]

/-- The words of a text of which the last line is cut. -/
structure CutWords (x x' : Words) (k : Nat) : Prop where
  some : x ≠ []
  size : x'.length = x.length
  before : ∀ i, 4 * (i / 4) + 4 < x.length → x'[i]? = x[i]?
  kept : ∀ i, 20 * (i % 4) + 20 ≤ k → x'[i]? = x[i]?
  lost : ∀ i, i < x.length → x.length ≤ 4 * (i / 4) + 4 → k ≤ 20 * (i % 4) → x'[i]? = Option.some (Dbl.ofNat 0)

theorem cutWords {F : Formats} {n q : Nat} (h0 : 1 ≤ n) (h4 : n ≤ 4) {x x' : Words} {k : Nat}
    (h : LastLine (fun l => parseWords F l n) 4 q x x' k) : CutWords x x' k := by
  obtain ⟨init, v, v', line, cut, hi, rfl, rfl, hv, hv', hc, rfl⟩ := h
  have l1 := words_length hv
  have l2 := words_length hv'
  have hl : (init ++ v).length = 4 * q + n := by rw [List.length_append, hi, l1]
  refine ⟨fun e => ?_, by simp only [List.length_append, l1, l2], fun i h => ?_, fun i h => ?_, fun i h1 h2 h3 => ?_⟩
  · rw [e] at hl
    have : (0 : Nat) = 4 * q + n := hl
    omega
  · rw [hl] at h
    rw [List.getElem?_append_left (by omega), List.getElem?_append_left (by omega)]
  · by_cases hlt : i < init.length
    · rw [List.getElem?_append_left hlt, List.getElem?_append_left hlt]
    · rw [List.getElem?_append_right (by omega), List.getElem?_append_right (by omega)]
      by_cases hn : i - init.length < n
      · obtain ⟨a, e1, e2⟩ := words_get hv hn
        obtain ⟨b, e3, e4⟩ := words_get hv' hn
        rw [e2, e4]
        rw [column_kept hc (by omega)] at e3
        exact congrArg _ (Except.ok.inj (e3.symm.trans e1))
      · rw [List.getElem?_eq_none (by omega), List.getElem?_eq_none (by omega)]
  · rw [hl] at h1 h2
    rw [List.getElem?_append_right (by omega)]
    obtain ⟨b, e3, e4⟩ := words_get hv' (i := i - init.length) (by omega)
    rw [column_lost (by omega)] at e3
    rw [e4]
    exact congrArg _ (Except.ok.inj e3.symm)

theorem parseLines_eq (F : Formats) : ∀ n, parseLines F n = lines (fun l => parseWords F l 4) n
  | 0 => rfl
  | n + 1 => by
    funext text
    unfold parseLines lines
    rw [parseLines_eq F n]
    rfl

theorem parseInts_eq : ∀ n, parseInts n = lines (fun l => (List.range 8).mapM fun i => readInt (column l (9 * i) 9)) n
  | 0 => rfl
  | n + 1 => by
    funext text
    unfold parseInts lines
    rw [parseInts_eq n]
    rfl

theorem parseIZAW_eq (F : Formats) : ∀ n, parseIZAW F n = lines (fun l => (List.range 4).mapM (parsePair F l)) n
  | 0 => rfl
  | n + 1 => by
    funext text
    unfold parseIZAW lines
    rw [parseIZAW_eq F n]
    rfl

theorem ints_cut (n : Nat) : Cut (parseInts n)
    (LastLine (fun l => (List.range 8).mapM fun i => readInt (column l (9 * i) 9)) 8 (n - 1)) := by
  rw [parseInts_eq]
  exact lines_cut _ 8 (fun l v h => by rw [mapM_length h, List.length_range]) n

theorem izaw_start (F : Formats) (n : Nat) : Start (parseIZAW F n) := by
  rw [parseIZAW_eq]
  exact (lines_cut _ 4 (fun l v h => by rw [mapM_length h, List.length_range]) n).start

theorem wordLines_cut (F : Formats) (n : Nat) : Cut (parseLines F n) (LastLine (fun l => parseWords F l 4) 4 (n - 1)) := by
  rw [parseLines_eq]
  exact lines_cut _ 4 (fun l v h => words_length h) n

theorem lastWords_cut (F : Formats) {e : Nat} (he : e ≠ 0) : Cut (parseLast F e) (LastLine (fun l => parseWords F l e) 4 0) := by
  have h := lines_cut (fun l => parseWords F l e) e (fun l v h => words_length h) 1
  have hk : parseLast F e = lines (fun l => parseWords F l e) 1 := by
    funext text
    unfold parseLast
    rw [if_pos he]
    simp only [lines, ok_bind, List.append_nil]
    rfl
  rw [hk]
  refine h.weaken fun x x' k hl => ?_
  obtain ⟨i, w, w', line, cut, c0, c1, c2, c3, c4, c5, c6⟩ := hl
  exact ⟨i, w, w', line, cut, by simpa using c0, c1, c2, c3, c4, c5, c6⟩

theorem last_zero (F : Formats) (text : Str) : parseLast F 0 text = .ok ([], text) := rfl

theorem xss_cut (F : Formats) {size : Int} (h : 0 < size) : Cut (parseXSS F size) CutWords := by
  have hk : parseXSS F size = fun s => parseLines F (size.toNat / 4) s >>= fun a =>
      parseLast F (size.toNat % 4) a.2 >>= fun b => .ok (a.1 ++ b.1, b.2) := by
    funext text
    unfold parseXSS
    have : guardThrow (decide (0 ≤ size)) = .ok () := by
      rw [decide_eq_true (by omega)]; rfl
    rw [this]
    rfl
  rw [hk]
  by_cases h0 : size.toNat % 4 = 0
  · have h1 : size.toNat / 4 ≠ 0 := by omega
    have key := Cut.map (k := fun a => .ok (a ++ [])) (T := CutWords) (wordLines_cut F (size.toNat / 4))
      fun x x' y y' n hl e e' => by
        obtain rfl := Except.ok.inj e
        obtain rfl := Except.ok.inj e'
        rw [List.append_nil, List.append_nil]
        exact cutWords (by decide) (by decide) hl
    rw [h0]
    exact key
  · by_cases h1 : size.toNat / 4 = 0
    · have key := (lastWords_cut F h0).weaken (T := CutWords) fun x x' k hl => cutWords (by omega) (by omega) hl
      rw [h1]
      intro s x r e p hp
      obtain ⟨a, e1, e⟩ := bind_eq_ok.mp e
      obtain rfl := Except.ok.inj e1
      obtain ⟨b, e1, e⟩ := bind_eq_ok.mp e
      obtain ⟨rfl, rfl⟩ := Prod.mk.inj (Except.ok.inj e)
      rcases key s b.1 b.2 e1 p hp with ⟨c, p', a1, a2, a3⟩ | a | ⟨x', before, line, cut, more, b1, b2, b3, b4, b5, b6, b7⟩
      · exact .whole c p' a1 a2 (by simp only [parseLines, ok_bind]; rw [a3]; rfl)
      · exact .refused fun y e => by
          simp only [parseLines, ok_bind] at e
          obtain ⟨q, e1, _⟩ := bind_eq_ok.mp e
          exact a q e1
      · exact .last x' before line cut more (by simp only [parseLines, ok_bind]; rw [b1]; rfl) b2 b3 b4 b5 b6 b7
    · have hlen (w : Words) (s : Str) (r : Str) : parseLines F (size.toNat / 4) s = .ok (w, r) → w.length = 4 * (size.toNat / 4) := by
        intro e
        have : ∀ (n : Nat) (s : Str) (w : Words) (r : Str), parseLines F n s = .ok (w, r) → w.length = 4 * n := by
          intro n
          induction n with
          | zero => intro s w r e; obtain ⟨rfl, _⟩ := Prod.mk.inj (Except.ok.inj e); rfl
          | succ n ih =>
            intro s w r e
            rw [parseLines_eq] at e ih
            obtain ⟨a, _, e⟩ := bind_eq_ok.mp e
            obtain ⟨v, e2, e⟩ := bind_eq_ok.mp e
            obtain ⟨m, e3, e⟩ := bind_eq_ok.mp e
            obtain ⟨rfl, _⟩ := Prod.mk.inj (Except.ok.inj e)
            rw [List.length_append, words_length e2, ih _ _ _ e3]
            omega
        exact this _ s w r e
      let g : Words → Str → Res (Words × Str) := fun w s =>
        if w.length = 4 * (size.toNat / 4) then parseLast F (size.toNat % 4) s >>= fun b => .ok (w ++ b.1, b.2)
        else .error .thrown
      have hk : (fun s => parseLines F (size.toNat / 4) s >>= fun a =>
          parseLast F (size.toNat % 4) a.2 >>= fun b => .ok (a.1 ++ b.1, b.2)) =
          fun s => parseLines F (size.toNat / 4) s >>= fun a => g a.1 a.2 := by
        funext s
        cases e : parseLines F (size.toNat / 4) s with
        | error _ => rfl
        | ok a =>
          simp only [ok_bind, g]
          rw [if_pos (hlen a.1 s a.2 e)]
      rw [hk]
      refine Cut.bind (S := fun _ => CutWords) (wordLines_cut F _).start (fun w => ?_) (fun w y e => ?_) fun _ _ _ _ h => h
      · by_cases hw : w.length = 4 * (size.toNat / 4)
        · have hg : g w = fun s => parseLast F (size.toNat % 4) s >>= fun b => .ok (w ++ b.1, b.2) := by
            funext s
            exact if_pos hw
          rw [hg]
          exact Cut.map (k := fun b => .ok (w ++ b)) (T := CutWords) (lastWords_cut F h0) fun x x' y y' n hl e e' => by
            obtain rfl := Except.ok.inj e
            obtain rfl := Except.ok.inj e'
            obtain ⟨i, v, v', line, cut, c0, c1, c2, c3, c4, c5, c6⟩ := hl
            refine cutWords (F := F) (n := size.toNat % 4) (q := size.toNat / 4) (by omega) (by omega)
              ⟨w ++ i, v, v', line, cut, ?_, by rw [c1, List.append_assoc], by rw [c2, List.append_assoc], c3, c4, c5, c6⟩
            rw [List.length_append, hw, c0]
            omega
        · intro s x r e
          simp only [g] at e
          rw [if_neg hw] at e
          cases e
      · simp only [g] at e
        split at e
        · unfold parseLast at e
          rw [if_pos h0] at e
          cases e
        · cases e

/-- A version 1 header behind its first line. -/
def rest1 (F : Formats) (l1 : Str) (s : Str) : Res (Header × Str) :=
  F.read (column l1 10 12) >>= fun awr => F.read (column l1 22 12) >>= fun temp => guardThrow (!awr.isNeg) >>= fun _ =>
  guardThrow (!temp.isNeg) >>= fun _ => nextLine s >>= fun b =>
  (.ok (Header.mk' (column l1 0 10) awr temp (column l1 35 10) (column b.1 0 70) (column b.1 70 10)) : Res Header) >>= fun h =>
  .ok (h, b.2)

theorem rest1_nil (F : Formats) (l1 : Str) (y) : rest1 F l1 [] ≠ .ok y := fun e => by
  obtain ⟨_, _, e⟩ := bind_eq_ok.mp e
  obtain ⟨_, _, e⟩ := bind_eq_ok.mp e
  obtain ⟨_, _, e⟩ := bind_eq_ok.mp e
  obtain ⟨_, _, e⟩ := bind_eq_ok.mp e
  cases e

theorem header_eq (F : Formats) : Header.parse F = fun s => nextLine s >>= fun a => rest1 F a.1 a.2 := rfl

/-- Version 1 headers. -/
theorem header_start (F : Formats) : Start (Header.parse F) := by
  rw [header_eq]
  refine Start.bind (g := rest1 F) nextLine_cut.start (fun l1 => ?_) fun l1 y r e => absurd e (rest1_nil F l1 _)
  exact Start.before fun awr => Start.before fun temp => Start.before fun _ => Start.before fun _ =>
      Start.map (k := fun b => .ok (Header.mk' (column l1 0 10) awr temp (column l1 35 10) (column b 0 70) (column b 70 10)))
        nextLine_cut.start

theorem comments_eq : ∀ n, Header201.parseComments n = lines (fun l => .ok [Header201.stripRight (column l 0 80)]) n
  | 0 => rfl
  | n + 1 => by
    funext text
    unfold Header201.parseComments lines
    rw [comments_eq n]
    rfl

theorem comments_start (n : Nat) : Start (Header201.parseComments n) := by
  rw [comments_eq]
  exact (lines_cut _ 1 (fun l v h => by obtain rfl := Except.ok.inj h; rfl) n).start

theorem comments_nil {n : Nat} {y : List Str} {r : Str} (h : Header201.parseComments n [] = .ok (y, r)) : r = [] := by
  cases n with
  | zero => exact (Prod.mk.inj (Except.ok.inj h)).2.symm
  | succ n => cases h

/-- A version 2 header behind its second line. -/
def comments2 (F : Formats) (l1 l2 : Str) (s : Str) : Res (Header201 × Str) :=
  Header201.line2 F (column l2 0 80) >>= fun v =>
  guardThrow (!v.1.isNeg) >>= fun _ => guardThrow (!v.2.1.isNeg) >>= fun _ =>
  guardThrow (!decide (v.2.2.2 < 0)) >>= fun _ => Header201.parseComments v.2.2.2.toNat s >>= fun c =>
  (.ok (Header201.make (strip (column l1 0 10)) (column l1 11 24) (column l1 36 24) v.1 v.2.1 v.2.2.1 c.1) : Res Header201) >>=
  fun h => .ok (h, c.2)

/-- A version 2 header behind its first line. -/
def rest2 (F : Formats) (l1 : Str) (s : Str) : Res (Header201 × Str) :=
  guardThrow (strip (column l1 0 10) == "2.0.0".toList || strip (column l1 0 10) == "2.0.1".toList) >>= fun _ =>
  nextLine s >>= fun b => comments2 F l1 b.1 b.2

theorem rest2_nil (F : Formats) (l1 : Str) (y) : rest2 F l1 [] ≠ .ok y := fun e => by
  obtain ⟨_, _, e⟩ := bind_eq_ok.mp e
  cases e

theorem header201_eq (F : Formats) : Header201.parse F = fun s => nextLine s >>= fun a => rest2 F a.1 a.2 := rfl

/-- Version 2 headers. -/
theorem header201_start (F : Formats) : Start (Header201.parse F) := by
  rw [header201_eq]
  refine Start.bind (g := rest2 F) nextLine_cut.start (fun l1 => ?_) fun l1 y r e => absurd e (rest2_nil F l1 _)
  refine Start.before fun _ => Start.bind (g := comments2 F l1) nextLine_cut.start (fun l2 => ?_) fun l2 y r e => ?_
  · exact Start.before fun v => Start.before fun _ => Start.before fun _ => Start.before fun _ =>
      Start.map (k := fun c => .ok (Header201.make (strip (column l1 0 10)) (column l1 11 24) (column l1 36 24) v.1 v.2.1 v.2.2.1 c))
        (comments_start _)
  · obtain ⟨_, _, e⟩ := bind_eq_ok.mp e
    obtain ⟨_, _, e⟩ := bind_eq_ok.mp e
    obtain ⟨_, _, e⟩ := bind_eq_ok.mp e
    obtain ⟨_, _, e⟩ := bind_eq_ok.mp e
    obtain ⟨c, e1, e⟩ := bind_eq_ok.mp e
    obtain ⟨_, h2⟩ := Prod.mk.inj (Except.ok.inj e)
    rw [← h2]
    exact comments_nil e1

/-- The version of a first line. -/
def versionOf (line : Str) : Str :=
  match extract (column line 0 80) with
  | some (version, _) => version
  | none => []

/-- A header of the version of its first line. -/
def byVersion (F : Formats) (version : Str) (text : Str) : Res (AnyHeader × Str) :=
  if version == "2.0.0".toList || version == "2.0.1".toList then
    Header201.parse F text >>= fun a => .ok (.v2 a.1, a.2)
  else Header.parse F text >>= fun a => .ok (.v1 a.1, a.2)

theorem any_eq (F : Formats) (s : Str) :
    Table.parseHeader F s = (nextLine s >>= fun a => byVersion F (versionOf a.1) s) := by
  unfold Table.parseHeader Table.readVersion
  cases nextLine s with
  | error _ => rfl
  | ok a => rfl

theorem byVersion_start (F : Formats) (v : Str) : Start (byVersion F v) := by
  unfold byVersion
  split
  · exact Start.map (k := fun h => (.ok (.v2 h) : Res AnyHeader)) (header201_start F)
  · exact Start.map (k := fun h => (.ok (.v1 h) : Res AnyHeader)) (header_start F)

theorem byVersion_line {l a : Str} (h : nextLine l = .ok (a, [])) (F : Formats) (v : Str) (y) : byVersion F v l ≠ .ok y := fun e => by
  unfold byVersion at e
  split at e
  · rw [header201_eq] at e
    obtain ⟨_, e, _⟩ := bind_eq_ok.mp e
    simp only [h, ok_bind] at e
    exact rest2_nil F a _ e
  · rw [header_eq] at e
    obtain ⟨_, e, _⟩ := bind_eq_ok.mp e
    simp only [h, ok_bind] at e
    exact rest1_nil F a _ e

theorem any_start (F : Formats) : Start (Table.parseHeader F) := by
  intro s x r e p hp
  rw [any_eq] at e
  rw [any_eq]
  obtain ⟨⟨line, rest⟩, hl, e⟩ := bind_eq_ok.mp e
  rcases nextLine_cut s line rest hl p hp with ⟨c, p', a1, a2, a3⟩ | a | ⟨l', before, l, cut, more, b1, b2, b3, b4, b5, b6, b7⟩
  · rw [a3, ok_bind]
    exact byVersion_start F _ s x r e p hp
  · refine .inr fun y p' e => ?_
    obtain ⟨_, hl, _⟩ := bind_eq_ok.mp e
    exact absurd hl (a _)
  · refine .inr fun y p' e => ?_
    rw [b1, ok_bind] at e
    exact absurd e (byVersion_line b1 F _ _)

/-- A table behind its header, the pairs and NXS. -/
def tail (F : Formats) (h : AnyHeader) (izaw : List (Int × Dbl)) (nxs : List Int) (s : Str) : Res (Table × Str) :=
  parseInts 4 s >>= fun a => parseXSS F (nxs.headD 0) a.2 >>= fun b =>
  .ok (⟨h, ⟨izaw.map (·.1), izaw.map (·.2), nxs, a.1, b.1⟩⟩, b.2)

theorem parse_eq (F : Formats) : Table.parse F = fun s => Table.parseHeader F s >>= fun a =>
    parseIZAW F 4 a.2 >>= fun b => parseInts 2 b.2 >>= fun c => tail F a.1 b.1 c.1 c.2 := by
  funext s
  unfold Table.parse TableData.parse tail
  simp only [bind_assoc, pure_eq_ok, ok_bind]

theorem tail_nil (F : Formats) (h izaw nxs y) : tail F h izaw nxs [] ≠ .ok y := fun e => by cases e

theorem tail_cut (F : Formats) (h : AnyHeader) (izaw : List (Int × Dbl)) (nxs : List Int) :
    Cut (tail F h izaw nxs) Table.CutLine := by
  rcases Int.lt_trichotomy (nxs.headD 0) 0 with hs | hs | hs
  · intro s x r e
    obtain ⟨_, _, e⟩ := bind_eq_ok.mp e
    unfold parseXSS at e
    rw [decide_eq_false (by omega)] at e
    cases e
  · have hk : tail F h izaw nxs = fun s => parseInts 4 s >>= fun a =>
        (.ok ⟨h, ⟨izaw.map (·.1), izaw.map (·.2), nxs, a.1, []⟩⟩ : Res Table) >>= fun t => .ok (t, a.2) := by
      funext s
      unfold tail
      rw [hs]
      rfl
    rw [hk]
    refine Cut.map (k := fun j => (.ok ⟨h, ⟨izaw.map (·.1), izaw.map (·.2), nxs, j, []⟩⟩ : Res Table)) (ints_cut 4)
      fun j j' t t' k hl e e' => ?_
    obtain rfl := Except.ok.inj e
    obtain rfl := Except.ok.inj e'
    obtain ⟨i, v, v', line, cut, c0, rfl, rfl, c3, c4, c5, c6⟩ := hl
    refine ⟨rfl, rfl, rfl, rfl, rfl, ⟨?_, ?_, fun h => absurd rfl h⟩, fun _ _ => rfl, fun _ _ => rfl, fun i hi => absurd hi (Nat.not_lt_zero _)⟩
    · simp only [List.length_append, mapM_length c3, mapM_length c4]
    · show List.take 24 (i ++ v') = List.take 24 (i ++ v)
      have c0 : i.length = 24 := c0
      rw [List.take_left' c0, List.take_left' c0]
  · refine Cut.bind (g := fun j s => parseXSS F (nxs.headD 0) s >>= fun b =>
        .ok (⟨h, ⟨izaw.map (·.1), izaw.map (·.2), nxs, j, b.1⟩⟩, b.2)) (S := fun _ => Table.CutLine) (ints_cut 4).start
      (fun j => ?_) (fun j y e => ?_) fun _ _ _ _ h => h
    · refine Cut.map (k := fun w => (.ok ⟨h, ⟨izaw.map (·.1), izaw.map (·.2), nxs, j, w⟩⟩ : Res Table)) (xss_cut F hs)
        fun w w' t t' k hl e e' => ?_
      obtain rfl := Except.ok.inj e
      obtain rfl := Except.ok.inj e'
      exact ⟨rfl, rfl, rfl, rfl, hl.size, ⟨rfl, rfl, fun _ => rfl⟩, hl.before, hl.kept, hl.lost⟩
    · obtain ⟨b, e, _⟩ := bind_eq_ok.mp e
      unfold parseXSS at e
      rw [decide_eq_true (by omega)] at e
      obtain ⟨c, e1, e⟩ := bind_eq_ok.mp e
      obtain ⟨d, e2, e⟩ := bind_eq_ok.mp e
      by_cases h1 : (nxs.headD 0).toNat / 4 = 0
      · rw [h1] at e2
        obtain rfl := Except.ok.inj e2
        obtain ⟨f, e3, _⟩ := bind_eq_ok.mp e
        unfold parseLast at e3
        rw [if_pos (by omega)] at e3
        cases e3
      · obtain ⟨n, hn⟩ := Nat.exists_eq_succ_of_ne_zero h1
        rw [hn] at e2
        cases e2

theorem table_cut (F : Formats) : Cut (Table.parse F) Table.CutLine := by
  rw [parse_eq]
  refine Cut.bind (g := fun h s => parseIZAW F 4 s >>= fun b => parseInts 2 b.2 >>= fun c => tail F h b.1 c.1 c.2)
    (S := fun _ => Table.CutLine) (any_start F) (fun h => ?_) (fun h y e => ?_) fun _ _ _ _ h => h
  · refine Cut.bind (g := fun z s => parseInts 2 s >>= fun c => tail F h z c.1 c.2) (S := fun _ => Table.CutLine)
      (izaw_start F 4) (fun z => ?_) (fun z y e => ?_) fun _ _ _ _ h => h
    · exact Cut.bind (g := fun n s => tail F h z n s) (S := fun _ => Table.CutLine) (ints_cut 2).start
        (fun n => tail_cut F h z n) (fun n y e => tail_nil F h z n y e) fun _ _ _ _ h => h
    · cases e
  · cases e

end ACE.Cuts
