#!/usr/bin/env python3
"""Writes lean/Verif/Model/Python.lean from the member functions of the five table classes and their bindings."""
import re
R='/repo/'
classes=[("ContinuousEnergyTable","CE","continuous"),("DosimetryTable","Dosimetry","dosimetry"),
 ("PhotoatomicTable","PA","photoatomic"),("PhotonuclearTable","PN","photonuclear"),("ThermalScatteringTable","TS","thermal")]
fields={'CE':{'and_':'ang'},'Dosimetry':{'sig_':'sigd'}}
ctor={
'CE':dict(esz='ESZ',nu='NU?',mtr='MTR',lqr='LQR',tyr='TYR',sig='SIG',ang='AND',dlw='DLW',gpd='GPD?',mtrp='MTR?',sigp='SIGP?',andp='AND?',dlwp='DLWH?',yp='YP?',unr='UNR?',dnu='NU?',bdd='BDD?',dned='DLWH?',ptype='PTYPE?',ntro='NTRO?',ixs='IXS?',hpd='HPD',mtrh='MTR',tyrh='TYR',sigh='SIGH',andh='AND',dlwh='DLWH',yh='YP'),
'Dosimetry':dict(mtr='MTR',sigd='SIGD'),
'PA':dict(eszg='ESZG',jinc='JINC',jcoh='JCOH',jflo='JFLO?',lhnm='LHNM',eps='EPS?',swd='SWD?',subsh='SUBSH?',sphel='SPHEL?',xprob='XPROB?',esze='ESZE?',excit='EXCIT?',elas='electron?',eion='electron',breme='electron?',breml='BREML?',selas='SELAS?'),
'PN':dict(eszu='ESZU',mtr='MTR',lqr='LQR',sig='SIG',ixsu='IXSU?',pxs='crossSection',phn='crossSection',mtrh='MTR',tyrh='TYR',sigh='SIGH',andh='AND',dlwh='DLWH'),
'TS':dict(itie='ITIE',itxe='ITXE',itce='ITIE?',itca='ITCA?',itcei='ITIE?',itcai='ITCA?')}
types=dict(ESZ='ESZ',NU='NU',MTR='MTR',LQR='LQR',TYR='TYR',SIG='SIG',AND='AngularBlock',DLW='DLW',GPD='GPD',SIGP='SIGP',DLWH='DLWH',YP='YP',UNR='UNR',BDD='BDD',PTYPE='PTYPE',NTRO='NTRO',IXS='IXS',HPD='HPD',SIGH='SIGH',SIGD='SIGD',ESZG='ESZG',JINC='JINC',JCOH='JCOH',JFLO='JFLO',LHNM='LHNM',EPS='EPS',SWD='SWD',SUBSH='SUBSH',SPHEL='SPHEL',XPROB='XPROB',ESZE='ESZE',EXCIT='EXCIT',electron='ElectronBlock',BREML='BREML',SELAS='SELAS',ESZU='ESZU',IXSU='IXSU',crossSection='CrossSectionData',ITIE='ITIE',ITXE='ITXE',ITCA='ITCA')
import glob
# the members that the model of a class defines already
counted={(m.group(2),m.group(1)) for f in glob.glob('/verif/lean/Verif/Model/*.lean') for m in re.finditer(r'def (\w+) \(t : (\w+)\) : Res Nat := t\.data\.count \d+',open(f).read())}
def members(c,C):
    s=open(f'{R}src/ACEtk/{c}.hpp').read()
    s=s[s.index('using Table::XSS') if 'using Table::XSS' in s else s.index('public:'):]
    off=open(f'{R}src/ACEtk/{c}.hpp').read()[:-len(s)].count('\n')
    L=[]
    for m in re.finditer(r'\n  (static )?(constexpr )?([\w:<>& ]+?[ &>])\s*(\w+)\(([^)]*)\)( const)? \{',s):
        i=m.end(); d=1
        while d:
            d+= s[i]=='{'; d-= s[i]=='}'; i+=1
        b=re.sub(r'\s+',' ',s[m.end():i-1]).strip()
        b=re.sub(r'#ifndef NDEBUG.*#endif ','',b)
        l1=off+s[:m.start(4)].count('\n')+1; l2=off+s[:i].count('\n')+1
        name=m.group(4); static=bool(m.group(1))
        if re.fullmatch(r'return std::visit\(.*header\.(\w+)\(\); \}, this->header\(\) \);',b):
            f=re.search(r'header\.(\w+)\(',b).group(1)
            assert f==name
            body={'ZAID':'.value fun t => .ok (.text t.1.zaid)','AWR':'.value fun t => .ok (.real t.1.awr)','TEMP':'.value fun t => .ok (.real t.1.temp)','date':'.value fun t => .ok (.text t.1.date)'}[f]
        elif (x:=re.fullmatch(r'return this->data\(\)\.NXS\((\d+)\);',b)):
            k=int(x.group(1))
            if m.group(3).strip()=='int': body=f'.value fun t => do return .signed (← t.2.data.signed {k})'
            elif (C,name) in counted: body=f'.value fun t => do return .count (← t.2.{name})'
            else: body=f'.value fun t => do return .count (← t.2.data.count {k})'
        elif b=='return this->NTR() + 1;': body='.value fun t => do return .count (← t.2.totalNumberReactions)'
        elif static: body='.static (.count '+re.fullmatch(r'return (\d+);',b).group(1)+')'
        elif (x:=re.fullmatch(r'return this->(\w+)_\[ index - 1 \];',b)):
            k=ctor[C][x.group(1)]
            body=f'.indexed fun t i => do return .{k} (← t.2.{name} i)'
            assert name.lower()==x.group(1)
        elif (x:=re.fullmatch(r'return this->(\w+)\((?: index )?\);',b)): body=f'.same "{x.group(1)}"'
        elif (x:=re.fullmatch(r'return this->(\w+_);',b)):
            f=fields.get(C,{}).get(x.group(1),x.group(1)[:-1]); k=ctor[C][f]
            body=(f'.value fun t => .ok (opt .{k[:-1]} t.2.{f})' if k.endswith('?') else f'.value fun t => .ok (.{k} t.2.{f})')
        else: raise Exception((c,name,b))
        L.append((l1,l2,name,body))
    return L
def bindings(c):
    s=open(f'{R}python/src/{c}.python.cpp').read()
    return [(s[:m.start(2)].count('\n')+1,m.group(2),m.group(3),m.group(1)=='def') for m in re.finditer(r'\.(def\w*)\(\s*"(\w+)",\s*&Table::(\w+),',s)]
o='''import Verif.Model.Typed
import Verif.Model.Members

/-!
# The members of the five table classes and their Python names

Written by tools/pymodel.py from /repo/src/ACEtk/*Table.hpp and /repo/python/src/*Table.python.cpp.

A table class in C++ has member functions; most of them are there twice, under the name used in the
ACE manual and under a descriptive name that forwards to the first. pybind11 registers attributes of
the Python class one after the other: `def_property_readonly` replaces an attribute of the same name.
Not modelled: overload sets (`def` of a name used before; there is none in these classes), the keyword
arguments and the conversion of a Python integer to an index (a negative one is a TypeError).
-/

namespace ACE
namespace Python

/-- What a member function can return: a string, a double, an unsigned or signed integer, a block, or
nothing (an empty `std::optional`, `None` in Python). -/
inductive Val where
  | nothing
  | text (s : List Char)
  | real (x : Dbl)
  | count (n : Nat)
  | signed (n : Int)
'''
for k,v in types.items(): o+=f'  | {k} (b : ACE.{v})\n'
o+='''deriving DecidableEq

/-- A `std::optional` block, pybind11/stl.h. -/
def opt {B : Type} (f : B → Val) : Option B → Val
  | none => .nothing
  | some b => f b

/-- The body of a member function: it has no argument, it is static, it takes an index, or it forwards
to another member with the same arguments. -/
inductive Body (T : Type) where
  | value (f : T → Res Val)
  | static (v : Val)
  | indexed (f : T → Nat → Res Val)
  | same (name : String)

/-- A member function with the line of its class definition. -/
structure Member (T : Type) where
  line : Nat
  name : String
  body : Body T

/-- An attribute of a Python class: the line of the binding file, its name, the member function given
to pybind11 and whether it was given to `def` (a method) or `def_property_readonly` (a property). -/
structure Binding where
  line : Nat
  python : String
  member : String
  method : Bool
deriving DecidableEq

/-- The outcome of using a member: the result of a function, no such member, or wrong arguments. -/
inductive Outcome where
  | result (r : Res Val)
  | missing
  | arguments
deriving DecidableEq

/-- The function found for a name, following one forwarding. -/
def find {T : Type} (api : List (Member T)) (name : String) : Option (Body T) :=
  match (api.find? (·.name == name)).map Member.body with
  | some (.same other) => (api.find? (·.name == other)).map Member.body
  | b => b

/-- Running the body of a member function without (`none`) or with an index. -/
def run {T : Type} (t : T) : Option (Body T) → Option Nat → Outcome
  | some (.value f), none => .result (f t)
  | some (.static v), none => .result (.ok v)
  | some (.indexed f), some i => .result (f t i)
  | none, _ => .missing
  | _, _ => .arguments

/-- A call of a member function in C++, `t.name()` or `t.name( index )`. -/
def cpp {T : Type} (api : List (Member T)) (t : T) (name : String) (index : Option Nat) : Outcome :=
  run t (find api name) index

/-- pybind11 calls the getter of a property and a method with the table as its first argument, which a
static member function does not take (a TypeError). -/
def runPython {T : Type} (t : T) (method : Bool) : Option (Body T) → Option Nat → Outcome
  | some (.static _), _ => .arguments
  | b, index => if method = index.isSome then run t b index else .arguments

/-- The binding in force for a name: the last one registered (`def_property_readonly` sets the
attribute of the class again). -/
def binding (bs : List Binding) (name : String) : Option Binding :=
  bs.reverse.find? (·.python == name)

/-- An attribute of a table in Python: `t.name` or `t.name( index )`. -/
def python {T : Type} (api : List (Member T)) (bs : List Binding) (t : T) (name : String)
    (index : Option Nat) : Outcome :=
  match binding bs name with
  | none => .missing
  | some b => runPython t b.method (find api b.member) index

'''
for c,C,n in classes:
    o+=f'/-- The member functions of `{c}`, /repo/src/ACEtk/{c}.hpp (the number is the line). -/\ndef {n}Members : List (Member (AnyHeader × {C})) := [\n'
    o+=',\n'.join(f'  ⟨{a}, "{m}", {b}⟩' for a,_,m,b in members(c,C))+']\n\n'
    o+=f'/-- The attributes of `{c}` in Python, /repo/python/src/{c}.python.cpp (the number is the line). -/\ndef {n}Bindings : List Binding := [\n'
    o+=',\n'.join(f'  ⟨{l}, "{p}", "{m}", {"true" if d else "false"}⟩' for l,p,m,d in bindings(c))+']\n\n'
o+='end Python\nend ACE\n'
open('/verif/lean/Verif/Model/Python.lean','w').write(o)
