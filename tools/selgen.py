"""Prints Verif/Lemmas/Select.lean."""
import sys
sys.path.insert(0,'/verif/tools')
from casesgen import *
HEAD='''import Verif.Lemmas.Rows
import Verif.Lemmas.Table

/-!
# Every encoding is the one the search settles on

Generated: one theorem for each encoding. Most words of an encoding match no encoding that
is tried before; the 10 encodings that have such words are handled one by one.
-/

namespace Verif
open BS Thumb Handler

/-- The decoders in the order in which they are tried. -/
def sortedOf (is32 : Bool) : List Dec := if is32 then sorted32 else sorted16

/-- Searching for a valid word of this encoding ends at `d`. -/
def Case.Selected (c : Case) (d : Dec) : Prop := ∀ (w : Nat) (a : Int), fits c.enc.pat w = true →
  c.enc.ok (field c.enc.pat w) = true → tryAll w a (sortedOf d.is32) = d.decode w a

/-- A valid word is not passed on to the next decoder. -/
def Case.Settles (c : Case) : Prop := ∀ f, c.enc.ok f = true → c.raises f ≠ some .decodeError

theorem Case.Correct.settles {c : Case} {d : Dec} (h : c.Correct d) (hs : c.Settles) {w : Nat} (a : Int)
    (hf : fits c.enc.pat w = true) (ho : c.enc.ok (field c.enc.pat w) = true) : d.decode w a ≠ .error .decodeError := by
  obtain ⟨h1, h2⟩ := h w a hf
  cases hr : c.raises (field c.enc.pat w) with
  | none => obtain ⟨i, hi, _⟩ := h2 hr; rw [hi]; simp
  | some e =>
    rw [h1 e hr]
    intro he
    injection he with he
    exact hs _ ho (by rw [hr, he])

theorem tryAll_head {d : Dec} {w : Nat} {a : Int} (t : List Dec) (hc : d.check w = true) (hd : d.decode w a ≠ .error .decodeError) :
    tryAll w a (d :: t) = d.decode w a := by
  rw [tryAll, if_pos hc]
  split
  · next h => exact absurd h hd
  · rfl

theorem tryAll_skip {d : Dec} {w : Nat} {a : Int} (t : List Dec) (h : d.check w = true → d.decode w a = .error .decodeError) :
    tryAll w a (d :: t) = tryAll w a t := by
  rw [tryAll]
  split
  · next hc => rw [h hc]
  · rfl

/-- Nothing that is tried before can match. -/
theorem selected_of_head {c : Case} {d : Dec} (t : List Dec) (h : c.Correct d) (hs : c.Settles) (hp : samePat c.enc.pat d = true)
    (hh : ((sortedOf d.is32).filter fun e => !clashes d e) = d :: t) : c.Selected d := by
  intro w a hf ho
  have hc := (check_iff_fits hp w).mpr hf
  rw [← tryAll_clash hc, hh]
  exact tryAll_head t hc (h.settles hs a hf ho)

/-- Two that are tried before do not want the word. -/
theorem selected_of_two {c : Case} {d e1 e2 : Dec} (t : List Dec) (h : c.Correct d) (hs : c.Settles) (hp : samePat c.enc.pat d = true)
    (hh : ((sortedOf d.is32).filter fun e => !clashes d e) = e1 :: e2 :: d :: t)
    (h1 : ∀ w a, fits c.enc.pat w = true → c.enc.ok (field c.enc.pat w) = true → e1.check w = true → e1.decode w a = .error .decodeError)
    (h2 : ∀ w a, fits c.enc.pat w = true → c.enc.ok (field c.enc.pat w) = true → e2.check w = true → e2.decode w a = .error .decodeError) :
    c.Selected d := by
  intro w a hf ho
  have hc := (check_iff_fits hp w).mpr hf
  rw [← tryAll_clash hc, hh, tryAll_skip _ (h1 w a hf ho), tryAll_skip _ (h2 w a hf ho)]
  exact tryAll_head t hc (h.settles hs a hf ho)

/-- One that is tried before does not want the word. -/
theorem selected_of_one {c : Case} {d e1 : Dec} (t : List Dec) (h : c.Correct d) (hs : c.Settles) (hp : samePat c.enc.pat d = true)
    (hh : ((sortedOf d.is32).filter fun e => !clashes d e) = e1 :: d :: t)
    (h1 : ∀ w a, fits c.enc.pat w = true → c.enc.ok (field c.enc.pat w) = true → e1.check w = true → e1.decode w a = .error .decodeError) :
    c.Selected d := by
  intro w a hf ho
  have hc := (check_iff_fits hp w).mpr hf
  rw [← tryAll_clash hc, hh, tryAll_skip _ (h1 w a hf ho)]
  exact tryAll_head t hc (h.settles hs a hf ho)

namespace Select
'''
by={c[0]:c for c in cases}
def D(n): return lean(by[n][2]).replace('\n    ',' ')
order=[c[0] for c in cases]
wt=lambda d: bin(d[5]).count('1')
def tail(n):
    d=by[n][2]
    l=[]
    for m in order:
        e=by[m][2]
        if m!=n and d[4]==e[4] and (d[6]&d[5]&e[5])==(e[6]&d[5]&e[5]): l.append(m)
    s=sorted(l+[n],key=lambda m:(-wt(by[m][2]),order.index(m)))
    k=s.index(n)
    return s[:k],s[k+1:]
# how the earlier one is excluded
ABSURD={('addSpRegT1','addRegT2'):[('m',[(3,4)])],
 ('addSpRegT2','addRegT2'):[('d',[(7,1),(0,3)])],
 ('addSpRegT1','addSpRegT2'):[('m',[(3,4)])],
 ('movsReg','lslsImm'):[('i',[(6,5)])],
 ('svc','bCond'):[('c',[(8,4)])],
 ('udf','bCond'):[('c',[(8,4)])],
 ('popW','ldmW'):[('w',[(5,1)]),('n',[(0,4)])]}
def why(e,n):
    out=[]
    if (e,n) in ABSURD:
        out.append("intro w a hf ho hc")
        out.append("exfalso")
        fs=[]
        for c,rs in ABSURD[(e,n)]:
            fn={1:'field_one',2:'field_two'}[len(rs)]
            out.append("have f%s := %s (pat := Thumb.%s.pat) (c := '%s') %s (by decide) w"%(c,fn,n,c,' '.join('%d %d'%r for r in rs)))
            for k,r in enumerate(rs):
                out.append("have x%s%d := fixed_of_check hc %d %d (by decide)"%(c,k,r[0],r[1]))
            out.append("simp only [toNat_append, %s] at f%s"%(', '.join('x%s%d'%(c,k) for k in range(len(rs))),c))
            fs.append('f'+c)
        out.append("change Thumb.%s.ok (field Thumb.%s.pat w) = true at ho"%(n,n))
        out.append("simp [Thumb.%s] at ho %s"%(n,' '.join(fs)))
        out.append("simp [%s] at ho"%', '.join(fs))
    else:
        out.append("intro w a hf ho hc")
        out.append("refine (Rows.%s w a ((check_iff_fits (by decide +kernel) w).mp hc)).1 _ ?_"%e)
        out.append("have fn := field_one (pat := Thumb.%s.pat) (c := 'n') 0 4 (by decide) w"%e)
        out.append("have xn := fixed_of_check (d := %s) ((check_iff_fits (by decide +kernel) w).mpr hf) 0 4 (by decide)"%D(n))
        out.append("rw [xn] at fn")
        out.append("change (if field Thumb.%s.pat w 'n' = 15 then some PyErr.decodeError else none) = _"%e)
        out.append("exact if_pos fn")
    return out
if __name__=='__main__':
    print(HEAD)
    for n in order:
        a,b=tail(n)
        print("theorem %s : Case.%s.Selected\n    %s := by"%(n,n,D(n)))
        args="[%s] Rows.%s (by intro f; simp [Case.%s, Thumb.%s] <;> grind) (by decide +kernel) (by decide +kernel)"%(',\n      '.join(D(m) for m in b),n,n,n)
        if not a: print("  exact selected_of_head "+args)
        else:
            print("  refine selected_of_%s%s %s%s"%({1:'one',2:'two'}[len(a)],''.join("\n    (e%d := %s)"%(k+1,D(m)) for k,m in enumerate(a)),args,' ?_'*len(a)))
            for e in a:
                w=why(e,n)
                print("  · "+'\n    '.join(w))
        print()
    print("end Select\n")
    print('''/-- The fixed bits decide, as the decoder does, whether a word is a halfword or two. -/
def halfFits (d : Dec) : Bool :=
  let clash (t : Nat) : Bool := d.fmt.mtch &&& (d.fmt.mask &&& 0xf800) != t &&& (d.fmt.mask &&& 0xf800)
  if d.is32 then [0xf800, 0xf000, 0xe800].any fun t => d.fmt.mask &&& 0xf800 == 0xf800 && d.fmt.mtch &&& 0xf800 == t
  else [0xf800, 0xf000, 0xe800].all fun t => clash t

/-- What is known of an encoding and its decoder. -/
structure Good (c : Case) (d : Dec) : Prop where
  correct : c.Correct d
  selected : c.Selected d
  settles : c.Settles
  same : samePat c.enc.pat d = true
  length : c.enc.pat.length = if d.is32 then 32 else 16
  halves : halfFits d = true

/-- Row by row. -/
def AllGood : List Case → List Dec → Prop
  | [], [] => True
  | c :: cs, d :: ds => Good c d ∧ AllGood cs ds
  | _, _ => False

theorem allGood : AllGood Case.all decs := by
  unfold Case.all decs
  exact ⟨''' + ',\n    '.join("⟨Rows.%s, Select.%s, (by intro f; simp [Case.%s, Thumb.%s] <;> grind), (by decide +kernel), rfl, (by decide)⟩"%(n,n,n,n) for n in order)+ ''',
    trivial⟩

end Verif''')
