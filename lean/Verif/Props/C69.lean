import Verif.Lemmas.AgreeOther
import Verif.Model.FormatBlocks
import Verif.Props.C21
import Verif.Props.C22

/-!
# C69: words behind the last word of a block

A table hands a block the words from its first word to the first word of the next block, or to the
end of the XSS array. The blocks do not have to fill that range. The claim: the words behind the
last word of a block do not matter. When a block (or the data of a reaction, a distribution, …) can
be made from a range of words, it can be made from the same range with any words appended to it,
and whatever a member function of the first returns, the member function of the second returns.

The claim is `X.ofRange xs … ≼ X.ofRange (xs ++ ys) …`, `≼` as defined in `Verif.Props.AgreeSpec`.
It holds for the classes of the theorems below without any hypothesis, or for all ranges with at
least one word. It does not hold

* for an empty range (`C69_empty_range`): an object is made from no words at all although its first
  word, the number of values, is missing;
* for the functions that look for a number in a list up to the end of the range
  (`C69_MTR_false`, `C69_YP_false`);
* for the classes which find out how many values they have from the size of the range
  (`C69_JINC_false`, `C69_JCOH_false`, `C69_TRAN_false`).
-/

namespace ACE.Props
open ACE

variable (xs ys : Words)

/-- The blocks which are arrays of equal length: cross sections, Q values, reaction numbers,
heating numbers, subshells, stopping powers, elastic cosines. -/
theorem C69_arrays_partial (n m : Nat) :
    ESZ.ofRange xs n ≼ ESZ.ofRange (xs ++ ys) n ∧
    LQR.ofRange xs n ≼ LQR.ofRange (xs ++ ys) n ∧
    MTR.ofRange xs n ≼ MTR.ofRange (xs ++ ys) n ∧
    PTYPE.ofRange xs n ≼ PTYPE.ofRange (xs ++ ys) n ∧
    GPD.ofRange xs n ≼ GPD.ofRange (xs ++ ys) n ∧
    ESZU.ofRange xs n m ≼ ESZU.ofRange (xs ++ ys) n m ∧
    ESZG.ofRange xs n ≼ ESZG.ofRange (xs ++ ys) n ∧
    LHNM.ofRange xs n ≼ LHNM.ofRange (xs ++ ys) n ∧
    JFLO.ofRange xs n ≼ JFLO.ofRange (xs ++ ys) n ∧
    SPHEL.ofRange xs n m ≼ SPHEL.ofRange (xs ++ ys) n m ∧
    EPS.ofRange xs n ≼ EPS.ofRange (xs ++ ys) n ∧
    SUBSH.ofRange xs n ≼ SUBSH.ofRange (xs ++ ys) n ∧
    EXCIT.ofRange xs n ≼ EXCIT.ofRange (xs ++ ys) n ∧
    BREML.ofRange xs n ≼ BREML.ofRange (xs ++ ys) n ∧
    SELAS.ofRange xs n ≼ SELAS.ofRange (xs ++ ys) n ∧
    ITCA.ofRange xs n m ≼ ITCA.ofRange (xs ++ ys) n m ∧
    ESZE.ofRange xs n m ≼ ESZE.ofRange (xs ++ ys) n m := by
  have h := Longer.array xs ys
  exact ⟨h _ _, h _ _, h _ _, h _ _, h _ _, h _ _, h _ _, h _ _, h _ _, h _ _, h _ _, h _ _, h _ _,
    h _ _, h _ _, h _ _, h _ _⟩

/-- Columns of values behind their number: the number of values has to be there. -/
theorem C69_columns_partial (h : xs ≠ []) (nc : Nat) :
    ColumnData.ofRange xs nc ≼ ColumnData.ofRange (xs ++ ys) nc ∧
    ITIE.ofRange xs ≼ ITIE.ofRange (xs ++ ys) :=
  ⟨Longer.column ys h nc, Longer.column ys h 2⟩

/-- Tabulated data, distributions and probability tables. -/
theorem C69_tabulated (v emin emax : Dbl) (n : Nat) :
    TabulatedData.ofRange xs ≼ TabulatedData.ofRange (xs ++ ys) ∧
    TabProb.ofRange xs ≼ TabProb.ofRange (xs ++ ys) ∧
    TabDist.ofRange v xs ≼ TabDist.ofRange v (xs ++ ys) ∧
    TwoParam.ofRange xs emin emax ≼ TwoParam.ofRange (xs ++ ys) emin emax ∧
    Evaporation.ofRange xs ≼ Evaporation.ofRange (xs ++ ys) ∧
    ProbabilityTable.ofRange xs v n ≼ ProbabilityTable.ofRange (xs ++ ys) v n :=
  ⟨Longer.tabulated xs ys, Longer.prob xs ys, Longer.tabDist xs ys v, Longer.twoParam xs ys emin emax,
    Longer.evaporation xs ys, Longer.probabilityTable xs ys v n⟩

/-- The blocks of secondary particles: locators, particle types, numbers of reactions, heating,
reference frames and multiplicities. -/
theorem C69_secondary (n : Nat) :
    IXS.ofRange xs n ≼ IXS.ofRange (xs ++ ys) n ∧
    IXSU.ofRange xs n ≼ IXSU.ofRange (xs ++ ys) n ∧
    HPD.ofRange xs ≼ HPD.ofRange (xs ++ ys) ∧
    NTRO.ofRange xs n ≼ NTRO.ofRange (xs ++ ys) n ∧
    TYR.ofRange xs n ≼ TYR.ofRange (xs ++ ys) n :=
  ⟨Longer.ixs xs ys n, Longer.ixsu xs ys n, Longer.hpd xs ys, Longer.ntro xs ys n, Longer.tyr xs ys n⟩

/-- The reaction numbers of photon production (the search functions excepted). -/
theorem C69_YP_partial (h : xs ≠ []) : YP.ofRange xs ≼ YP.ofRange (xs ++ ys) := Longer.yp ys h

/-- The blocks with a locator for every reaction: cross sections, dosimetry cross sections, photon
production, particle production, Compton profiles. -/
theorem C69_located (iter n : Nat) :
    SIG.ofRange xs iter n ≼ SIG.ofRange (xs ++ ys) iter n ∧
    SIGD.ofRange xs iter n ≼ SIGD.ofRange (xs ++ ys) iter n ∧
    SIGP.ofRange xs iter n ≼ SIGP.ofRange (xs ++ ys) iter n ∧
    SIGH.ofRange xs iter n ≼ SIGH.ofRange (xs ++ ys) iter n ∧
    SWD.ofRange xs iter n ≼ SWD.ofRange (xs ++ ys) iter n :=
  ⟨Longer.locBlock xs ys (fun _ ws => Longer.crossSection ws ys) iter n true,
    Longer.locBlock xs ys (fun _ ws => Longer.tabulated ws ys) iter n true,
    Longer.locBlock xs ys (fun loc ws => Longer.photonData ws ys loc) iter n true,
    Longer.locBlock xs ys (fun _ ws => Longer.tabMult ws ys) iter n true,
    Longer.locBlock xs ys (fun _ ws => Longer.prob ws ys) iter n true⟩

/-- The energy distributions of electrons. -/
theorem C69_electrons (e : Dbl) (n : Nat) :
    ElectronBlock.ofRange xs n ≼ ElectronBlock.ofRange (xs ++ ys) n ∧
    ElectronDist.ofRange e xs n ≼ ElectronDist.ofRange e (xs ++ ys) n :=
  ⟨Longer.electronBlock xs ys n, Longer.electronDist xs ys e n⟩

/-- Angular distributions: those of a reaction and the block of all of them. -/
theorem C69_angular (e : Dbl) (locb iter nr : Nat) (zero : Bool) :
    EquiAngular.mk' e xs ≼ EquiAngular.mk' e (xs ++ ys) ∧
    AngularData.ofRange locb xs ≼ AngularData.ofRange locb (xs ++ ys) ∧
    AngularBlock.ofRange xs iter nr zero ≼ AngularBlock.ofRange (xs ++ ys) iter nr zero :=
  ⟨Longer.equiAngular xs ys e, Longer.angularData xs ys locb, Longer.angularBlock xs ys iter nr zero⟩

/-- The data of the energy laws, each on its own. -/
theorem C69_laws (locb : Nat) (emin emax : Dbl) :
    EquiBinData.ofRange xs ≼ EquiBinData.ofRange (xs ++ ys) ∧
    Law4.ofRange locb xs ≼ Law4.ofRange locb (xs ++ ys) ∧
    GenEvap.ofRange xs ≼ GenEvap.ofRange (xs ++ ys) ∧
    Watt.ofRange xs ≼ Watt.ofRange (xs ++ ys) ∧
    Law61.ofRange locb xs ≼ Law61.ofRange locb (xs ++ ys) ∧
    NBody.ofRange xs emin emax ≼ NBody.ofRange (xs ++ ys) emin emax ∧
    Law67.ofRange locb xs ≼ Law67.ofRange locb (xs ++ ys) :=
  ⟨Longer.equiBins xs ys, Longer.law4 xs ys locb, Longer.general xs ys, Longer.watt xs ys,
    Longer.law61 xs ys locb, Longer.nbody xs ys emin emax, Longer.law67 xs ys locb⟩

/-- Whatever the law, the chains of laws, and the energy distributions of a reaction. -/
theorem C69_energyData (law : Int) (locator : Nat) (emin emax : Dbl) :
    LawData.read law locator xs emin emax ≼ LawData.read law locator (xs ++ ys) emin emax ∧
    MultiData.ofRange locator xs ≼ MultiData.ofRange locator (xs ++ ys) ∧
    EnergyData.read locator xs ≼ EnergyData.read locator (xs ++ ys) ∧
    EnergyData.readSecondary locator xs ≼ EnergyData.readSecondary locator (xs ++ ys) :=
  ⟨Longer.law xs ys law locator emin emax, Longer.multi xs ys locator, Longer.energyData xs ys locator,
    Longer.secondaryData xs ys locator⟩

/-- The blocks of energy distributions. -/
theorem C69_energyBlocks (iter nr : Nat) (tyr : TYR) (tyrh : Option TYR) :
    DLW.ofRange xs iter tyr nr ≼ DLW.ofRange (xs ++ ys) iter tyr nr ∧
    DLWH.ofRange xs iter tyrh nr ≼ DLWH.ofRange (xs ++ ys) iter tyrh nr :=
  ⟨Longer.dlw xs ys iter tyr nr, Longer.dlwh xs ys iter tyrh nr⟩

/-- Fission: numbers of neutrons and precursor groups. -/
theorem C69_fission (n : Nat) :
    PolyNu.ofRange xs ≼ PolyNu.ofRange (xs ++ ys) ∧
    TabNu.ofRange xs ≼ TabNu.ofRange (xs ++ ys) ∧
    NU.ofRange xs ≼ NU.ofRange (xs ++ ys) ∧
    Precursor.ofRange xs n ≼ Precursor.ofRange (xs ++ ys) n ∧
    BDD.ofRange xs n ≼ BDD.ofRange (xs ++ ys) n :=
  ⟨Longer.polyNu xs ys, Longer.tabNu xs ys, Longer.nu xs ys, Longer.precursor xs ys n, Longer.bdd xs ys n⟩

/-- Unresolved resonances: the numbers of energies and bins have to be there. -/
theorem C69_UNR_partial (h : xs ≠ []) : UNR.ofRange xs ≼ UNR.ofRange (xs ++ ys) := Longer.unr ys h

/-- Thermal scattering. -/
theorem C69_thermal (ifeng nieb nc ne locb : Nat) :
    DCos.ofRange nc xs ≼ DCos.ofRange nc (xs ++ ys) ∧
    PCos.ofRange nc xs ≼ PCos.ofRange nc (xs ++ ys) ∧
    ITXE.ofRange ifeng nieb nc ne locb xs ≼ ITXE.ofRange ifeng nieb nc ne locb (xs ++ ys) :=
  ⟨Longer.dcos xs ys nc, Longer.pcos xs ys nc, Longer.itxe xs ys ifeng nieb nc ne locb⟩

namespace C69

/-- Words. -/
abbrev w (l : List Nat) : Words := l.map Dbl.ofNat

theorem throws {b : Bool} (h : b = false) : guardThrow b = .error .thrown := by rw [h]; rfl
theorem passes {b : Bool} (h : b = true) : guardThrow b = .ok () := by rw [h]; rfl

variable {xs ys}

theorem array {n m : Nat} (h : n * m ≤ xs.length) :
    ArrayData.ofRange xs n m = .ok ⟨xs, n, m⟩ := by
  unfold ArrayData.ofRange ArrayData.verifySize
  have := Nat.mod_le (n * m) 4294967296
  rw [passes (by simp; omega)]
  rfl

theorem jinc (h : xs.length ≠ 21) (he : xs.length % 2 = 0) :
    JINC.ofRange xs = .ok ⟨⟨xs, xs.length / 2, 2⟩, none⟩ := by
  unfold JINC.ofRange JINC.numberElements JINC.numberArrays
  rw [if_neg h, if_neg h, passes (by simpa using he)]
  simp only [ok_bind, pure_eq_ok, if_neg h]
  rw [array (by omega)]
  rfl

theorem jinc_ok {d : JINC} (h : xs.length ≠ 21) (hd : JINC.ofRange xs = .ok d) :
    xs.length % 2 = 0 ∧ d = ⟨⟨xs, xs.length / 2, 2⟩, none⟩ := by
  have he : xs.length % 2 = 0 := by
    by_contra hm
    unfold JINC.ofRange JINC.numberElements at hd
    rw [if_neg h, throws (by simpa using hm)] at hd
    exact nomatch hd
  rw [jinc h he] at hd
  exact ⟨he, (Except.ok.inj hd).symm⟩

theorem jcoh (h : xs.length ≠ 110) (he : xs.length % 3 = 0) :
    JCOH.ofRange xs = .ok ⟨⟨xs, xs.length / 3, 3⟩, none⟩ := by
  unfold JCOH.ofRange JCOH.numberElements JCOH.numberArrays
  rw [if_neg h, if_neg h, passes (by simpa using he)]
  simp only [ok_bind, pure_eq_ok, if_neg h]
  rw [array (by omega)]
  rfl

theorem jcoh_ok {d : JCOH} (h : xs.length ≠ 110) (hd : JCOH.ofRange xs = .ok d) :
    xs.length % 3 = 0 ∧ d = ⟨⟨xs, xs.length / 3, 3⟩, none⟩ := by
  have he : xs.length % 3 = 0 := by
    by_contra hm
    unfold JCOH.ofRange JCOH.numberElements at hd
    rw [if_neg h, throws (by simpa using hm)] at hd
    exact nomatch hd
  rw [jcoh h he] at hd
  exact ⟨he, (Except.ok.inj hd).symm⟩

theorem tran (he : xs.length % 4 = 0) :
    TRAN.ofRange xs = .ok ⟨xs, 4, xs.length / 4⟩ := by
  unfold TRAN.ofRange
  rw [passes (by simpa using he), ok_bind, array (by omega)]

theorem tran_ok {d : TRAN} (hd : TRAN.ofRange xs = .ok d) :
    xs.length % 4 = 0 ∧ d = ⟨xs, 4, xs.length / 4⟩ := by
  have he : xs.length % 4 = 0 := by
    by_contra hm
    unfold TRAN.ofRange at hd
    rw [throws (by simpa using hm)] at hd
    exact nomatch hd
  rw [tran he] at hd
  exact ⟨he, (Except.ok.inj hd).symm⟩

end C69

/-! ## Where the words behind the end do matter -/

/-- Columns of values are made from no words at all, and have no values; with the word 1 appended
there are values missing, and the same columns are refused. The same holds for photon production. -/
theorem C69_empty_range (nc : Nat) (h : 0 < nc) (h' : nc < 4294967296) :
    (∃ d, ColumnData.ofRange [] nc = .ok d ∧ d.N = .ok 0 ∧
      ColumnData.ofRange ([] ++ [Dbl.ofNat 1]) nc = .error .thrown) ∧
    (∃ d, YP.ofRange [] = .ok d ∧ YP.ofRange ([] ++ [Dbl.ofNat 1]) = .error .thrown) := by
  refine ⟨⟨_, rfl, rfl, ?_⟩, ⟨_, rfl, by decide +kernel⟩⟩
  have e : toSize (Dbl.ofNat 1).trunc? = .ok 1 := by decide +kernel
  show (do let ne ← toSize (Dbl.ofNat 1).trunc?; ColumnData.verifySize 1 ne nc; _) = _
  rw [e, ok_bind]
  have : ¬ (1 = 0 ∨ ¬ 1 < (1 + 1 * nc) % 18446744073709551616) := by
    rw [Nat.mod_eq_of_lt (by omega)]; omega
  unfold ColumnData.verifySize guardThrow
  rw [if_neg (by simpa using by omega)]
  rfl

/-- The reaction numbers 18 and 102, asked for 16: not there, unless there is a word behind them. -/
theorem C69_MTR_false : ∃ d d', MTR.ofRange [Dbl.ofNat 18, Dbl.ofNat 102] 2 = .ok d ∧
    MTR.ofRange ([Dbl.ofNat 18, Dbl.ofNat 102] ++ [Dbl.ofNat 7]) 2 = .ok d' ∧
    MTR.hasMT d 16 = .ok false ∧ MTR.hasMT d' 16 = .ok true ∧
    PTYPE.hasIP d 16 = .ok false ∧ PTYPE.hasIP d' 16 = .ok true :=
  ⟨_, _, rfl, rfl, by decide +kernel⟩

/-- The same for photon production. -/
theorem C69_YP_false : ∃ d d', YP.ofRange [Dbl.ofNat 1, Dbl.ofNat 18] = .ok d ∧
    YP.ofRange ([Dbl.ofNat 1, Dbl.ofNat 18] ++ [Dbl.ofNat 16]) = .ok d' ∧
    YP.hasMT d 16 = .ok false ∧ YP.hasMT d' 16 = .ok true :=
  ⟨_, _, rfl, rfl, by decide +kernel⟩

/-- The incoherent scattering function: with an odd number of further words it is refused, with an
even number of further words it has more values than it had. -/
theorem C69_JINC_false (hx : xs.length ≠ 21) (hy : (xs ++ ys).length ≠ 21) (d : JINC)
    (h : JINC.ofRange xs = .ok d) :
    (ys.length % 2 = 1 → JINC.ofRange (xs ++ ys) = .error .thrown) ∧
    (ys.length % 2 = 0 → ∃ d', JINC.ofRange (xs ++ ys) = .ok d' ∧ d'.NM = d.NM + ys.length / 2) := by
  have hn : (xs ++ ys).length = xs.length + ys.length := List.length_append
  obtain ⟨e, rfl⟩ := C69.jinc_ok hx h
  refine ⟨fun hm => ?_, fun hm => ?_⟩
  · unfold JINC.ofRange JINC.numberElements
    rw [if_neg hy, C69.throws (by rw [hn]; simp; omega)]
    rfl
  · refine ⟨_, C69.jinc hy (by omega), ?_⟩
    show (xs ++ ys).length / 2 = xs.length / 2 + ys.length / 2
    omega

/-- The coherent form factors likewise, with three values for every momentum. -/
theorem C69_JCOH_false (hx : xs.length ≠ 110) (hy : (xs ++ ys).length ≠ 110) (d : JCOH)
    (h : JCOH.ofRange xs = .ok d) :
    (ys.length % 3 ≠ 0 → JCOH.ofRange (xs ++ ys) = .error .thrown) ∧
    (ys.length % 3 = 0 → ∃ d', JCOH.ofRange (xs ++ ys) = .ok d' ∧ d'.NM = d.NM + ys.length / 3) := by
  have hn : (xs ++ ys).length = xs.length + ys.length := List.length_append
  obtain ⟨e, rfl⟩ := C69.jcoh_ok hx h
  refine ⟨fun hm => ?_, fun hm => ?_⟩
  · unfold JCOH.ofRange JCOH.numberElements
    rw [if_neg hy, C69.throws (by rw [hn]; simp; omega)]
    rfl
  · refine ⟨_, C69.jcoh hy (by omega), ?_⟩
    show (xs ++ ys).length / 3 = xs.length / 3 + ys.length / 3
    omega

/-- The transitions of a subshell likewise, with four values for every transition. -/
theorem C69_TRAN_false (d : TRAN) (h : TRAN.ofRange xs = .ok d) :
    (ys.length % 4 ≠ 0 → TRAN.ofRange (xs ++ ys) = .error .thrown) ∧
    (ys.length % 4 = 0 → ∃ d', TRAN.ofRange (xs ++ ys) = .ok d' ∧
      TRAN.NT d' = TRAN.NT d + ys.length / 4) := by
  have hn : (xs ++ ys).length = xs.length + ys.length := List.length_append
  obtain ⟨e, rfl⟩ := C69.tran_ok h
  refine ⟨fun hm => ?_, fun hm => ?_⟩
  · unfold TRAN.ofRange
    rw [C69.throws (by rw [hn]; simp; omega)]
    rfl
  · refine ⟨_, C69.tran (by omega), ?_⟩
    show (xs ++ ys).length / 4 = xs.length / 4 + ys.length / 4
    omega

/-! ## The objects exist

For every class, words an object is made from: the theorems say that it is made from them, followed
by any other words, as well. -/

example : (ESZ.ofRange (C69.w [1,2,3,4,5]) 1).isOk := by decide +kernel
example : (ColumnData.ofRange (C69.w [1,2,3]) 2).isOk := by decide +kernel
example : (TabulatedData.ofRange (C69.w [0,2,1,2,3,4])).isOk := by decide +kernel
example : (TabProb.ofRange (C69.w [2,1,1,1,1])).isOk := by decide +kernel
example : (TabDist.ofRange (Dbl.ofNat 1) (C69.w [2,1,1,1,1])).isOk := by decide +kernel
example : (TwoParam.ofRange (C69.w [1,2]) (Dbl.ofNat 1) (Dbl.ofNat 2)).isOk := by decide +kernel
example : (Evaporation.ofRange (C69.w [0,2,1,2,3,4,1])).isOk := by decide +kernel
example : (ProbabilityTable.ofRange (C69.w [1,2,3,4,5,6]) (Dbl.ofNat 1) 1).isOk := by decide +kernel
example : (IXS.ofRange (C69.w [1,2,3,4,5,6,7,8,9,10]) 1).isOk := by decide +kernel
example : (IXSU.ofRange (C69.w [1,2,3,4,5,6,7,8,9,10,11,12]) 1).isOk := by decide +kernel
example : (HPD.ofRange (C69.w [1,1,3,4])).isOk := by decide +kernel
example : (NTRO.ofRange (C69.w [1]) 1).isOk := by decide +kernel
example : (TYR.ofRange (C69.w [1]) 1).isOk := by decide +kernel
example : (YP.ofRange (C69.w [1,18])).isOk := by decide +kernel
example : (SIG.ofRange (C69.w [1,1,1,3]) 1 1).isOk := by decide +kernel
example : (SIGD.ofRange (C69.w [1,0,2,1,2,3,4]) 1 1).isOk := by decide +kernel
example : (SIGP.ofRange (C69.w [1,13,1,1,3]) 1 1).isOk := by decide +kernel
example : (SIGP.ofRange (C69.w [1,12,1,0,1,2,3]) 1 1).isOk := by decide +kernel
example : (SIGH.ofRange (C69.w [1,12,1,0,1,2,3]) 1 1).isOk := by decide +kernel
example : (SWD.ofRange (C69.w [1,2,1,1,1,1]) 1 1).isOk := by decide +kernel
example : (ElectronBlock.ofRange (C69.w [1,2,0,5,6,7,8]) 1).isOk := by decide +kernel
example : (ElectronDist.ofRange (Dbl.ofNat 1) (C69.w [1,2,3,4]) 2).isOk := by decide +kernel
example : (EquiAngular.mk' (Dbl.ofNat 1) (List.replicate 33 (Dbl.ofNat 1))).isOk :=
  by decide +kernel
example : (AngularData.ofRange 1 (C69.w [1,5,0])).isOk := by decide +kernel
example : (AngularBlock.ofRange (C69.w [1,1,5,0]) 1 1 false).isOk := by decide +kernel
example : (EquiBinData.ofRange (C69.w [0,1,5,2,6,7])).isOk := by decide +kernel
example : (Law4.ofRange 1 (C69.w [0,1,5,5,2,1,1,1,1])).isOk := by decide +kernel
example : (GenEvap.ofRange (C69.w [0,2,1,2,3,4,2,5,6])).isOk := by decide +kernel
example : (Watt.ofRange (C69.w [0,2,1,2,3,4,0,2,1,2,3,4,1])).isOk := by decide +kernel
example : (NBody.ofRange (C69.w [3,1,2,1,1,1,1]) (Dbl.ofNat 1) (Dbl.ofNat 2)).isOk :=
  by decide +kernel
example : (Law61.ofRange 1 (C69.w [0,1,20,5,2,1,3,1,1,11,2,1,1,1,1])).isOk := by decide +kernel
example : (Law67.ofRange 1 (C69.w [0,1,5,5,2,1,1,9,2,1,1,1,1])).isOk := by decide +kernel
example : (LawData.read 3 1 (C69.w [1,2]) (Dbl.ofNat 1) (Dbl.ofNat 2)).isOk := by decide +kernel
example : (EnergyData.read 1 (C69.w [0,3,10,0,2,1,2,1,1,1,2])).isOk := by decide +kernel
example : (MultiData.ofRange 1 (C69.w [12,3,10,0,2,1,2,1,1,1,2,0,3,21,0,2,1,2,1,1,1,2])).isOk :=
  by decide +kernel
example : ((TYR.ofRange (C69.w [1]) 1 >>= fun t => DLW.ofRange (C69.w [1,0,3,10,0,2,1,2,1,1,1,2]) 1 t 1)).isOk :=
  by decide +kernel
example : (DLWH.ofRange (C69.w [1,0,3,10,0,2,1,2,1,1,1,2]) 1 none 1).isOk := by decide +kernel
example : (PolyNu.ofRange (C69.w [1,1,2])).isOk := by decide +kernel
example : (TabNu.ofRange (C69.w [2,0,1,1,2])).isOk := by decide +kernel
example : (NU.ofRange (C69.w [2,0,1,1,2])).isOk := by decide +kernel
example : (Precursor.ofRange (C69.w [2,0,1,1,2]) 1).isOk := by decide +kernel
example : (BDD.ofRange (C69.w [2,0,1,1,2]) 1).isOk := by decide +kernel
example : (UNR.ofRange (C69.w [1,1,2,0,0,0,5,1,2,3,4,5,6])).isOk := by decide +kernel
example : (DCos.ofRange 2 (C69.w [2,0,1])).isOk := by decide +kernel
example : (PCos.ofRange 2 (C69.w [2,0,1,3,4])).isOk := by decide +kernel
example : (ITXE.ofRange 0 1 2 1 0 (C69.w [2,0,1])).isOk := by decide +kernel
example : (ITXE.ofRange 2 1 2 1 1 (C69.w [2,1,5,6,7,8,9])).isOk := by decide +kernel
example : (JINC.ofRange (C69.w [2,1])).isOk := by decide +kernel
example : (JCOH.ofRange (C69.w [2,1,2])).isOk := by decide +kernel
example : (TRAN.ofRange (C69.w [2,1,2,1])).isOk := by decide +kernel

example := C69_JINC_false (C69.w [2, 1]) (C69.w [7]) (by decide) (by decide) _ rfl
example := C69_JCOH_false (C69.w [2, 1, 2]) (C69.w [7, 8, 9]) (by decide) (by decide) _ rfl
example := C69_TRAN_false (C69.w [2, 1, 2, 1]) (C69.w [7]) _ rfl
example := C69_empty_range 2 (by decide) (by decide)
/-- A reaction with one value and another word behind it: the value is the same. -/
example (d : SIG) (c : CrossSectionData) (v : Words) (h : SIG.ofRange (C69.w [1, 1, 1, 3]) 1 1 = .ok d)
    (hc : d.get 1 = .ok c) (hv : c.crossSections = .ok v) :
    ∃ d' c', SIG.ofRange (C69.w [1, 1, 1, 3] ++ C69.w [7]) 1 1 = .ok d' ∧ d'.get 1 = .ok c' ∧
      c'.crossSections = .ok v := by
  obtain ⟨d', h1, -, -, hg⟩ := (C69_located (C69.w [1, 1, 1, 3]) (C69.w [7]) 1 1).1 d h
  obtain ⟨c', h2, -, -, hx⟩ := hg 1 c hc
  obtain ⟨v', h3, hw⟩ := hx v hv
  cases hw
  exact ⟨d', c', h1, h2, h3⟩

end ACE.Props
