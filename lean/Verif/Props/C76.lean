import Verif.Model.Files
import Verif.Props.C50
import Verif.Props.C74

/-!
# C76: files that are written, and read again

A history of `to_file` calls, each of which can meet a file that cannot be opened, a full disk or the end of the
program.
-/

namespace ACE.Props
open ACE ACE.Text

/-- In the history this is the last call of `to_file` for the name in which the file was opened. -/
def LastCall (calls : List (Printed × Str × Fate)) (name : Str) (x : Printed) (fate : Fate) : Prop :=
  fate ≠ .refused ∧ ∃ before behind, calls = before ++ (x, name, fate) :: behind ∧
    ∀ c ∈ behind, c.2.1 = name → c.2.2 = .refused

/-- In the history the file of the name was never opened. -/
def NoCall (calls : List (Printed × Str × Fate)) (name : Str) : Prop := ∀ c ∈ calls, c.2.1 = name → c.2.2 = .refused

namespace C76

theorem put_other {d : Disk} {name other content : Str} (h : other ≠ name) : (d.put name content) other = d other := if_neg h
theorem put_same {d : Disk} {name content : Str} : (d.put name content) name = some content := if_pos rfl

theorem write_other {d : Disk} {name other text : Str} (h : other ≠ name) (fate : Fate) :
    (d.write name text fate) other = d other := by
  cases fate with
  | refused => rfl
  | cut n => exact put_other h
  | whole => exact put_other h

theorem noCall {F : Formats} : ∀ {calls : List (Printed × Str × Fate)} {d d' : Disk} {name : Str}, NoCall calls name →
    Disk.after F calls d = .ok d' → d' name = d name
  | [], _, _, _, _, h => by (cases h; rfl)
  | (x, other, fate) :: calls, d, d', name, hn, h => by
    obtain ⟨e, h1, h2⟩ := bind_eq_ok.mp h
    obtain ⟨text, h3, h4⟩ := bind_eq_ok.mp h1
    obtain rfl : d.write other text fate = e := Except.ok.inj h4
    rw [noCall (fun c hc => hn c (List.mem_cons_of_mem _ hc)) h2]
    by_cases ho : other = name
    · obtain rfl : fate = .refused := hn _ (List.mem_cons_self ..) ho
      rfl
    · exact write_other (Ne.symm ho) fate

theorem after_append {F : Formats} : ∀ (a b : List (Printed × Str × Fate)) (d : Disk),
    Disk.after F (a ++ b) d = Disk.after F a d >>= Disk.after F b
  | [], _, _ => rfl
  | (x, name, fate) :: a, b, d => by
    show (x.toFile F d name fate >>= fun e => Disk.after F (a ++ b) e) = _
    simp only [after_append a b]
    cases h : x.toFile F d name fate <;> simp [Disk.after, h, error_bind, ok_bind]

theorem mapM_at {α β : Type} {f : α → Res β} : ∀ {l : List α} {v : List β}, l.mapM f = .ok v → ∀ (i : Nat) (a : α),
    l[i]? = some a → ∃ b, v[i]? = some b ∧ f a = .ok b
  | [], _, _, _, _, h => by cases h
  | x :: l, v, h, i, a, hi => by
    rw [List.mapM_cons] at h
    obtain ⟨b, h1, h⟩ := bind_eq_ok.mp h
    obtain ⟨w, h2, h⟩ := bind_eq_ok.mp h
    obtain rfl : b :: w = v := Except.ok.inj h
    cases i with
    | zero =>
      obtain rfl := Option.some.inj hi
      exact ⟨b, rfl, h1⟩
    | succ i => exact mapM_at h2 i a hi

end C76

/-- What is in a file after a history: what was there if it was never opened, or what got there in the last call. -/
theorem C76_history (F : Formats) (calls : List (Printed × Str × Fate)) (d d' : Disk) (h : Disk.after F calls d = .ok d')
    (name : Str) : (NoCall calls name ∧ d' name = d name) ∨ ∃ x fate text, LastCall calls name x fate ∧
      x.print F = .ok text ∧ (fate = .whole → d' name = some text) ∧ ∀ n, fate = .cut n → d' name = some (text.take n) := by
  induction calls generalizing d with
  | nil => cases h; exact .inl ⟨fun _ hc => (nomatch hc), rfl⟩
  | cons c calls ih =>
    obtain ⟨x, other, fate⟩ := c
    obtain ⟨e, h1, h2⟩ := bind_eq_ok.mp h
    obtain ⟨text, h3, h4⟩ := bind_eq_ok.mp h1
    obtain rfl : d.write other text fate = e := Except.ok.inj h4
    rcases ih _ h2 with ⟨a1, a2⟩ | ⟨x', fate', text', ⟨b0, before, behind, b1, b2⟩, b3, b4⟩
    · by_cases ho : other = name
      · subst ho
        by_cases hf : fate = .refused
        · subst hf
          exact .inl ⟨List.forall_mem_cons.mpr ⟨fun _ => rfl, a1⟩, a2⟩
        · refine .inr ⟨x, fate, text, ⟨hf, [], calls, rfl, a1⟩, h3, ?_, ?_⟩
          · rintro rfl
            rw [a2]
            exact C76.put_same
          · rintro n rfl
            rw [a2]
            exact C76.put_same
      · refine .inl ⟨List.forall_mem_cons.mpr ⟨fun e => absurd e ho, a1⟩, ?_⟩
        rw [a2]
        exact C76.write_other (Ne.symm ho) fate
    · exact .inr ⟨x', fate', text', ⟨b0, _ :: before, behind, by rw [b1]; rfl, b2⟩, b3, b4⟩

/-- The last call decides: what it printed is in the file. -/
theorem C76_content (F : Formats) (calls : List (Printed × Str × Fate)) (d d' : Disk) (h : Disk.after F calls d = .ok d')
    (name : Str) (x : Printed) (fate : Fate) (hl : LastCall calls name x fate) : ∃ text, x.print F = .ok text ∧
      (fate = .whole → d' name = some text) ∧ ∀ n, fate = .cut n → d' name = some (text.take n) := by
  obtain ⟨h0, before, behind, rfl, hb⟩ := hl
  rw [C76.after_append] at h
  obtain ⟨e, _, h2⟩ := bind_eq_ok.mp h
  obtain ⟨e', h3, h4⟩ := bind_eq_ok.mp h2
  obtain ⟨text, h5, h6⟩ := bind_eq_ok.mp h3
  obtain rfl : e.write name text fate = e' := Except.ok.inj h6
  refine ⟨text, h5, ?_, ?_⟩
  · rintro rfl
    rw [C76.noCall hb h4]
    exact C76.put_same
  · rintro n rfl
    rw [C76.noCall hb h4]
    exact C76.put_same

/-- A table that was written in the last call for a file is read back from it, whatever was in the file before and
whatever happens to other files; as a table of a class it is what the class makes of the table that is read. -/
theorem C76_table (F : Formats) (calls : List (Printed × Str × Fate)) (d d' : Disk) (h : Disk.after F calls d = .ok d')
    (name : Str) (x : Printed) (hl : LastCall calls name x .whole) (t t' : Table) (hx : x = .table t ∨ ∃ y : Typed, x = .typed y ∧ y.table = t)
    (hf : TableFits F t t') : Table.ofFile F d' name = .ok t' ∧ Table.ofConcatenatedFile F d' name = .ok [t'] ∧
      ∀ k, Typed.ofFile F k d' name = Typed.ofTable k t' := by
  obtain ⟨text, h1, h2, _⟩ := C76_content F calls d d' h name x .whole hl
  obtain ⟨text', h3, h4⟩ := C41_table F t t' hf []
  have hp : x.print F = t.print F := by
    rcases hx with rfl | ⟨y, rfl, rfl⟩ <;> rfl
  rw [hp, h3] at h1
  obtain rfl := Except.ok.inj h1
  have key : Table.ofFile F d' name = .ok t' := by
    unfold Table.ofFile Disk.read
    rw [h2 rfl]
    show Table.fromFile F text' = _
    unfold Table.fromFile
    rw [List.append_nil] at h4
    rw [h4]
    rfl
  refine ⟨key, ?_, fun k => ?_⟩
  · obtain ⟨texts, h5, h6⟩ := C41_concatenated F [(t, t')] (fun p hp => by
      rw [List.mem_singleton] at hp; subst hp; exact hf)
    rw [List.mapM_cons, h3, ok_bind] at h5
    obtain rfl : [text'] = texts := Except.ok.inj h5
    unfold Table.ofConcatenatedFile Disk.read
    rw [h2 rfl]
    simpa using h6
  · unfold Typed.ofFile
    rw [key]
    rfl

/-- A table whose last call of `to_file` was cut off: reading refuses, or gives the table, or the table with a cut
last line. -/
theorem C76_cut_partial (F : Formats) (calls : List (Printed × Str × Fate)) (d d' : Disk) (h : Disk.after F calls d = .ok d')
    (name : Str) (t t' u : Table) (n : Nat) (hl : LastCall calls name (.table t) (.cut n)) (hf : TableFits F t t')
    (hu : Table.ofFile F d' name = .ok u) : u = t' ∨ ∃ k, t'.CutLine u k := by
  obtain ⟨text, h1, _, h2⟩ := C76_content F calls d d' h name _ _ hl
  obtain ⟨text', h3, h4⟩ := C41_table F t t' hf []
  have h1 : t.print F = .ok text := h1
  rw [h3] at h1
  obtain rfl := Except.ok.inj h1
  rw [List.append_nil] at h4
  unfold Table.ofFile Disk.read at hu
  rw [h2 n rfl] at hu
  rcases C74_cut_partial F text' text' [] t' u (List.append_nil _).symm h4 _ (List.take_prefix n text') hu with ⟨a, _⟩ | ⟨cut, _, a⟩
  · exact .inl a
  · exact .inr ⟨_, a⟩

/-- A file that was opened, with nothing written to it, is refused: what was in it before is lost. -/
theorem C76_lost (F : Formats) (calls : List (Printed × Str × Fate)) (d d' : Disk) (h : Disk.after F calls d = .ok d')
    (name : Str) (x : Printed) (hl : LastCall calls name x (.cut 0)) : Table.ofFile F d' name = .error .thrown ∧
      Table.ofConcatenatedFile F d' name = .ok [] := by
  obtain ⟨text, _, _, h2⟩ := C76_content F calls d d' h name x _ hl
  unfold Table.ofFile Table.ofConcatenatedFile Disk.read
  rw [h2 0 rfl]
  exact ⟨rfl, rfl⟩

/-- A file that is not there is an exception in all five functions. -/
theorem C76_missing (F : Formats) (d : Disk) (name : Str) (h : d name = none) :
    Table.ofFile F d name = .error .thrown ∧ Table.ofConcatenatedFile F d name = .error .thrown ∧
      (∀ k, Typed.ofFile F k d name = .error .thrown) ∧ (∀ k, Typed.ofConcatenatedFile F k d name = .error .thrown) ∧
      Xsdir.ofFile F d name = .error .thrown := by
  unfold Typed.ofFile Typed.ofConcatenatedFile Table.ofFile Table.ofConcatenatedFile Xsdir.ofFile Disk.read
  rw [h]
  exact ⟨rfl, rfl, fun _ => rfl, fun _ => rfl, rfl⟩

/-- The tables of a class in a concatenated file are made, in the same order, of the tables of the file: if the class
refuses one of them, there is none. -/
theorem C76_typed_files (F : Formats) (k : TableType) (d : Disk) (name : Str) (l : List Table)
    (h : Table.ofConcatenatedFile F d name = .ok l) :
    (∀ ts, Typed.ofConcatenatedFile F k d name = .ok ts → ts.length = l.length ∧
      ∀ (i : Nat) (s : Table), l[i]? = some s → ∃ t, ts[i]? = some t ∧ Typed.ofTable k s = .ok t) ∧
    (∀ s ∈ l, Typed.ofTable k s = .error .thrown → ∀ ts, Typed.ofConcatenatedFile F k d name ≠ .ok ts) := by
  have key : ∀ ts, Typed.ofConcatenatedFile F k d name = .ok ts → ts.length = l.length ∧
      ∀ (i : Nat) (s : Table), l[i]? = some s → ∃ t, ts[i]? = some t ∧ Typed.ofTable k s = .ok t := by
    intro ts e
    unfold Typed.ofConcatenatedFile at e
    rw [h, ok_bind] at e
    exact ⟨Cuts.mapM_length e, fun i s hi => C76.mapM_at e i s hi⟩
  refine ⟨key, fun s hs hr ts e => ?_⟩
  obtain ⟨i, hi⟩ := List.mem_iff_getElem?.mp hs
  obtain ⟨t, _, h2⟩ := (key ts e).2 i s hi
  rw [hr] at h2
  cases h2

/-- An xsdir that was written in the last call for a file is read back from it. -/
theorem C76_xsdir (F : Formats) (calls : List (Printed × Str × Fate)) (d d' : Disk) (h : Disk.after F calls d = .ok d')
    (name : Str) (awr : Ratios) (es : List XsdirEntry) (path : Option Str)
    (ratios : List (Nat × Dbl × Dbl)) (entries : List (XsdirEntry × Dbl × Option Dbl))
    (hl : LastCall calls name (.xsdir (Xsdir.mk' awr es path)) .whole)
    (hp : XsdirPrints F (Xsdir.mk' awr es path) ratios entries) :
    Xsdir.ofFile F d' name = .ok (Xsdir.mk' (ratios.map fun r => (r.1, r.2.2))
      (entries.map fun x => { x.1 with awr := x.2.1, temperature := x.2.2 }) path) := by
  obtain ⟨text, h1, h2, _⟩ := C76_content F calls d d' h name _ _ hl
  obtain ⟨text', h3, h4⟩ := C50_round_trip F awr es path ratios entries hp
  have h1 : Xsdir.print F (Xsdir.mk' awr es path) = .ok text := h1
  rw [h3] at h1
  obtain rfl := Except.ok.inj h1
  unfold Xsdir.ofFile Disk.read
  rw [h2 rfl, ok_bind, h4]
  rfl

/-- No failure is reported: a history goes on as if all files had been opened and written. -/
theorem C76_silent (F : Formats) : ∀ (calls : List (Printed × Str × Fate)) (d : Disk) (fates : List Fate),
    fates.length = calls.length → (∃ d', Disk.after F calls d = .ok d') →
      ∃ d', Disk.after F ((calls.zip fates).map fun c => (c.1.1, c.1.2.1, c.2)) d = .ok d'
  | [], d, _, _, _ => ⟨d, rfl⟩
  | (x, name, fate) :: calls, d, [], h, _ => by cases h
  | (x, name, fate) :: calls, d, fate' :: fates, h, ⟨d', h'⟩ => by
    obtain ⟨e, h1, h2⟩ := bind_eq_ok.mp h'
    obtain ⟨text, h3, h4⟩ := bind_eq_ok.mp h1
    have key : ∀ (calls : List (Printed × Str × Fate)) (d e : Disk), (∃ d', Disk.after F calls d = .ok d') →
        ∃ d', Disk.after F calls e = .ok d' := by
      intro calls
      induction calls with
      | nil => exact fun _ e _ => ⟨e, rfl⟩
      | cons c calls ih =>
        rintro d e ⟨d', h⟩
        obtain ⟨a, a1, a2⟩ := bind_eq_ok.mp h
        obtain ⟨text, a3, _⟩ := bind_eq_ok.mp a1
        obtain ⟨d'', a4⟩ := ih _ (e.write c.2.1 text c.2.2) ⟨d', a2⟩
        exact ⟨d'', bind_eq_ok.mpr ⟨_, bind_eq_ok.mpr ⟨text, a3, rfl⟩, a4⟩⟩
    obtain ⟨d'', h5⟩ := C76_silent F calls (d.write name text fate') fates (Nat.succ.inj h) (key calls _ _ ⟨d', h2⟩)
    exact ⟨d'', bind_eq_ok.mpr ⟨_, bind_eq_ok.mpr ⟨text, h3, rfl⟩, h5⟩⟩

/-- The full claim: a table is read back from a file when `to_file` returned. -/
def C76Statement : Prop := ∀ (F : Formats) (t t' : Table) (name : Str) (fate : Fate) (d d' : Disk), TableFits F t t' →
  Printed.toFile F (.table t) d name fate = .ok d' → Table.ofFile F d' name = .ok t'

/-- A file that could not be opened: nothing is said, and the table is not there. -/
theorem C76_false : ¬ C76Statement := by
  intro h
  obtain ⟨text, h1, _⟩ := C41_table Decimal.std _ _ exTable1_fits []
  have := h Decimal.std exTable1 _ [] .refused (fun _ => none) (fun _ => none) exTable1_fits
    (bind_eq_ok.mpr ⟨text, h1, rfl⟩)
  cases this

/-- The claim for a replaced file: what is in it is the former table or the new one. -/
def C76ReplaceStatement : Prop := ∀ (F : Formats) (t t' s : Table) (name : Str) (fate : Fate) (d d' : Disk), TableFits F t t' →
  Table.ofFile F d name = .ok s → Printed.toFile F (.table t) d name fate = .ok d' →
    Table.ofFile F d' name = .ok t' ∨ Table.ofFile F d' name = .ok s

/-- When the program stops after the file is opened neither is there. -/
theorem C76_replace_false : ¬ C76ReplaceStatement := by
  intro h
  obtain ⟨text, h1, _⟩ := C41_table Decimal.std _ _ exTable1_fits []
  obtain ⟨s, h2, _⟩ := C74.of_words C74.cut4
  have h0 : Printed.toFile Decimal.std (.table exTable1) (fun _ => some (C74.text 4)) [] (.cut 0) =
      .ok (Disk.write (fun _ => some (C74.text 4)) [] text (.cut 0)) := bind_eq_ok.mpr ⟨text, h1, rfl⟩
  have h3 : Table.ofFile Decimal.std (Disk.write (fun _ => some (C74.text 4)) [] text (.cut 0)) [] = .error .thrown := rfl
  rcases h Decimal.std exTable1 _ s [] (.cut 0) (fun _ => some (C74.text 4)) _ exTable1_fits h2 h0 with a | a <;>
    (rw [h3] at a; cases a)

namespace C76

/-- The first characters of a printed xsdir of two entries. -/
def xsdirText (n : Nat) : Str :=
  match exXsdir.print Decimal.std with
  | .ok text => text.take n
  | .error _ => []

end C76

/-- An xsdir that was cut off inside of its last entry is read without an error: the last entry has no ZAID and no
file name. -/
theorem C76_xsdir_cut : exXsdir.print Decimal.std = .ok (C76.xsdirText 363) ∧
    (Xsdir.ofFile Decimal.std (fun _ => some (C76.xsdirText 363)) []).map (fun x => x.entries.map fun e => e.zaid) =
      .ok ["92235.80c".toList, "92235.80c".toList] ∧
    (Xsdir.ofFile Decimal.std (fun _ => some (C76.xsdirText 300)) []).map (fun x => x.entries.map fun e => e.zaid) =
      .ok ["92235.80c".toList, []] ∧
    (Xsdir.ofFile Decimal.std (fun _ => some (C76.xsdirText 222)) []).map (fun x => x.entries.map fun e => e.zaid) =
      .ok ["92235.80c".toList] := by
  decide +kernel

namespace C76

/-- A file of two tables. -/
example : ∃ l, Table.ofConcatenatedFile Decimal.std (fun _ => some (C74.text 4 ++ newline :: C74.eight 80)) [] = .ok l ∧
    l.length = 2 ∧ ∀ ts, Typed.ofConcatenatedFile Decimal.std .dosimetry
      (fun _ => some (C74.text 4 ++ newline :: C74.eight 80)) [] ≠ .ok ts := by
  have h : (Table.ofConcatenatedFile Decimal.std (fun _ => some (C74.text 4 ++ newline :: C74.eight 80)) []).map
      (fun l => (l.length, l.head?.map fun t => Typed.ofTable .dosimetry t)) = .ok (2, some (.error .thrown)) := by
    decide +kernel
  cases e : Table.ofConcatenatedFile Decimal.std (fun _ => some (C74.text 4 ++ newline :: C74.eight 80)) [] with
  | error _ => rw [e] at h; cases h
  | ok l =>
    rw [e] at h
    obtain ⟨h1, h2⟩ := Prod.mk.inj (Except.ok.inj h)
    refine ⟨l, rfl, h1, ?_⟩
    cases l with
    | nil => cases h1
    | cons t l => exact (C76_typed_files _ _ _ _ _ e).2 t (List.mem_cons_self ..) (Option.some.inj h2)

/-- Two names. -/
def a : Str := "a".toList
def b : Str := "b".toList

/-- A history: a table is written to `a`, then to `b`, another to `a` with the disk full, a third to `b` that cannot be
opened. -/
def history : List (Printed × Str × Fate) := [(.table exTable1, a, .whole), (.table exTable1, b, .whole),
  (.table exTable2, a, .cut 1000), (.table exTable2, b, .refused), (.xsdir exXsdir, "x".toList, .whole)]

theorem history_b : LastCall history b (.table exTable1) .whole :=
  ⟨by decide, [(.table exTable1, a, .whole)], [(.table exTable2, a, .cut 1000), (.table exTable2, b, .refused),
    (.xsdir exXsdir, "x".toList, .whole)], rfl, by decide⟩

theorem history_a : LastCall history a (.table exTable2) (.cut 1000) :=
  ⟨by decide, [(.table exTable1, a, .whole), (.table exTable1, b, .whole)], [(.table exTable2, b, .refused),
    (.xsdir exXsdir, "x".toList, .whole)], rfl, by decide⟩

theorem history_x : LastCall history "x".toList (.xsdir exXsdir) .whole :=
  ⟨by decide, [(.table exTable1, a, .whole), (.table exTable1, b, .whole), (.table exTable2, a, .cut 1000),
    (.table exTable2, b, .refused)], [], rfl, fun _ h => nomatch h⟩

theorem history_runs (d : Disk) : ∃ d', Disk.after Decimal.std history d = .ok d' := by
  obtain ⟨t1, h1, _⟩ := C41_table Decimal.std _ _ exTable1_fits []
  obtain ⟨t2, h2, _⟩ := C41_table Decimal.std _ _ exTable2_fits []
  obtain ⟨t3, h3, _⟩ := C50_round_trip Decimal.std _ _ _ _ _ exXsdir_prints
  have h1 : Printed.print Decimal.std (.table exTable1) = .ok t1 := h1
  have h2 : Printed.print Decimal.std (.table exTable2) = .ok t2 := h2
  have h3 : Printed.print Decimal.std (.xsdir exXsdir) = .ok t3 := h3
  unfold history
  simp only [Disk.after, Printed.toFile, h1, h2, h3, ok_bind, pure_eq_ok]
  exact ⟨_, rfl⟩

end C76

/-- The hypotheses are met. -/
example (d : Disk) : ∃ d', Disk.after Decimal.std C76.history d = .ok d' ∧
    Table.ofFile Decimal.std d' C76.b = .ok ⟨.v1 exHeader, { exBody with xss := exRead }⟩ ∧
    (∀ u, Table.ofFile Decimal.std d' C76.a = .ok u →
      u = ⟨.v2 (exHeader201 "12/19/12" ["  two", "comments"]), { exBody with xss := exRead }⟩ ∨
      ∃ k, Table.CutLine ⟨.v2 (exHeader201 "12/19/12" ["  two", "comments"]), { exBody with xss := exRead }⟩ u k) ∧
    (∃ x, Xsdir.ofFile Decimal.std d' "x".toList = .ok x) ∧ d' "y".toList = d "y".toList := by
  obtain ⟨d', h⟩ := C76.history_runs d
  refine ⟨d', h, (C76_table _ _ d d' h _ _ C76.history_b _ _ (.inl rfl) exTable1_fits).1,
    fun u hu => C76_cut_partial _ _ d d' h _ _ _ u _ C76.history_a exTable2_fits hu,
    ⟨_, C76_xsdir _ _ d d' h _ _ _ _ _ _ C76.history_x exXsdir_prints⟩, C76.noCall (by unfold NoCall; decide) h⟩

end ACE.Props
