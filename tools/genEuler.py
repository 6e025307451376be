import sys; sys.path.insert(0,'/tmp/w')
from euler import D,orders
from lincomb import P,V,solve,C as PC
import re
from fractions import Fraction as F
def Mv(i,j): return P(V('m%d%d'%(i,j)))
M=[[Mv(i,j) for j in range(3)] for i in range(3)]
eqs={}
for i in range(3):
    for j in range(i,3):
        eqs['r%d%d'%(i,j)]=sum((M[i][k]*M[j][k] for k in range(3)),P({}))-(1 if i==j else 0)
        eqs['c%d%d'%(i,j)]=sum((M[k][i]*M[k][j] for k in range(3)),P({}))-(1 if i==j else 0)
for i in range(3):
    for j in range(3):
        a,b,c,d=(i+1)%3,(i+2)%3,(j+1)%3,(j+2)%3
        eqs['k%d%d'%(i,j)]=M[a][c]*M[b][d]-M[a][d]*M[b][c]-M[i][j]
names=list(eqs)
ones=[('',P(PC(1)))]+[('m %d %d'%(i,j),M[i][j]) for i in range(3) for j in range(3)]
def comb(T,extra={},pre='E.'):
    # try constant coefs first, then linear
    for mons in (ones[:1],ones):
        basis=[];lab=[]
        for n,p in list(eqs.items())+list(extra.items()):
            for mn,mp in mons:
                basis.append(p*mp); lab.append((n,mn))
        s=solve(T,basis)
        if s is not None:
            out=[]
            for c,(n,mn) in zip(s,lab):
                if c:
                    nm=(pre+n) if n in eqs else n
                    t=('(%s)'%c if c!=1 else '1')
                    if mn: t+=' * '+mn
                    out.append(t+' * '+nm)
            return ' + '.join(out) if out else '(0 : ℝ) * E.r00'
    raise Exception('no solution')
def lean(e):
    e=e.replace('.f','')
    e=re.sub(r'm\[(\d)\]\[(\d)\]',r'(m \1 \2)',e)
    e=re.sub(r'atan2\((-?)(\(m \d \d\)), (-?)(\(m \d \d\))\)',lambda q:'atan2 %s %s'%(('(-%s)'%q[2][1:-1] if q[1] else q[2]),('(-%s)'%q[4][1:-1] if q[3] else q[4])),e)
    e=re.sub(r'asin\(-(\(m \d \d\))\)',r'Real.arcsin (-\1)',e)
    e=re.sub(r'asin\((\(m \d \d\))\)',r'Real.arcsin \1',e)
    e=re.sub(r'acos\((\(m \d \d\))\)',r'Real.arccos \1',e)
    e=re.sub(r'\bpi\b','Real.pi',e)
    e=e.replace('-atan2','-atan2').replace('-(m','-(m')
    return e
def ent(e):
    e=re.sub(r'\bc(\w+)',r'Real.cos \1',e); e=re.sub(r'\bs([xyz]\d?)\b',r'Real.sin \1',e)
    e=e.replace('*',' * ').replace('  ',' ').replace('  ',' ')
    return e
mo=['''import Verif.Model.Quat

/-! Model of the Euler angle constructors and extractors of `float3x3` (also used by float3x4, float4x4
and Quat through the upper-left 3x3 part). Generated from the source text by a mechanical translation;
`SinCos` is sine and cosine, `asin`, `acos` the principal inverses, `atan2 y x` the argument of `x + iy`. -/

namespace MGL
namespace Mat3
noncomputable section
''']
pr=['''import Verif.Model.Euler
import Verif.Proofs.QuatRot
import Mathlib.Analysis.SpecialFunctions.Complex.Arg

/-! Helper lemmas for the Euler angles: one lemma per order and per branch. -/

namespace MGL
open V3

theorem atan2_sc {x y C : ℝ} (hC : 0 < C) (h : x * x + y * y = C * C) :
    Real.sin (atan2 y x) = y * (1 / C) ∧ Real.cos (atan2 y x) = x * (1 / C) := by
  have hn : ‖(⟨x, y⟩ : ℂ)‖ = C := by
    rw [Complex.norm_def, Complex.normSq_mk, h, Real.sqrt_mul_self hC.le]
  have h0 : (⟨x, y⟩ : ℂ) ≠ 0 := by
    intro h0; rw [h0, norm_zero] at hn; exact hC.ne hn
  constructor
  · unfold atan2; rw [Complex.sin_arg, hn]; ring
  · unfold atan2; rw [Complex.cos_arg h0, hn]; ring

theorem atan2_sc_one {x y : ℝ} (h : x * x + y * y = 1) :
    Real.sin (atan2 y x) = y ∧ Real.cos (atan2 y x) = x := by
  have := atan2_sc (C := 1) one_pos (by rw [h, mul_one]); simpa using this

theorem arcsin_sc {p : ℝ} (h1 : -1 < p) (h2 : p < 1) :
    Real.sin (Real.arcsin p) = p ∧ Real.cos (Real.arcsin p) = Real.sqrt (1 - p * p) := by
  refine ⟨Real.sin_arcsin h1.le h2.le, ?_⟩
  rw [Real.cos_arcsin, sq]

theorem arccos_sc {p : ℝ} (h1 : -1 < p) (h2 : p < 1) :
    Real.cos (Real.arccos p) = p ∧ Real.sin (Real.arccos p) = Real.sqrt (1 - p * p) := by
  refine ⟨Real.cos_arccos h1.le h2.le, ?_⟩
  rw [Real.sin_arccos, sq]

theorem mat9_eq (m : Mat3 ℝ) {a b c d e f g h i : ℝ} (h00 : a = m 0 0) (h01 : b = m 0 1) (h02 : c = m 0 2)
    (h10 : d = m 1 0) (h11 : e = m 1 1) (h12 : f = m 1 2) (h20 : g = m 2 0) (h21 : h = m 2 1) (h22 : i = m 2 2) :
    (!![a, b, c; d, e, f; g, h, i] : Mat3 ℝ) = m := by
  subst h00 h01 h02 h10 h11 h12 h20 h21 h22
  ext i j; fin_cases i <;> fin_cases j <;> rfl
''']
pp=['''import Verif.Proofs.Euler

/-! C56: Euler angles. -/

namespace MGL
open V3
''']
fe=[];examples=[]
for o in orders:
    d=D[o]; a=d['args']
    mo.append('/-- src/Math/Matrix.inl:%d-%d `Set3x3PartRotateEuler%s`; float3x3.cpp:183-277 `FromEuler%s`. -/'%(d['set'][0],d['set'][1],o,o))
    mo.append('def fromEuler%s (%s : ℝ) : Mat3 ℝ :='%(o,' '.join(a)))
    mo.append('  !![%s]\n'%';\n     '.join(', '.join(ent(d['ents'][i,j]) for j in range(3)) for i in range(3)))
    (pi,pj)=map(int,re.findall(r'm\[(\d)\]\[(\d)\]',d['conds'][0])[0])
    mo.append('/-- src/Math/Matrix.inl:%d-%d `ExtractEuler%s`; float3x3.cpp:1455-1466 `ToEuler%s`. -/'%(d['ext'][0],d['ext'][1],o,o))
    mo.append('def toEuler%s (m : Mat3 ℝ) : V3 ℝ :='%o)
    B=[[lean(b[n]) for n in a] for b in d['brs']]
    mo.append('  if m %d %d < 1 then\n    if m %d %d > -1 then ⟨%s⟩\n    else ⟨%s⟩\n  else ⟨%s⟩\n'%(pi,pj,pi,pj,*[', '.join(b) for b in B]))
    # proofs
    p=M[pi][pj]; pl='m %d %d'%(pi,pj)
    mid=a[1]
    tb=o[0]!=o[2]
    # main
    main=d['brs'][0]
    msgn=1
    if tb:
        mm=re.match(r'asin\((-?)m',main[mid]); msgn=-1 if mm[1] else 1
    def at(e):
        q=re.match(r'(-?)atan2\((-?)m\[(\d)\]\[(\d)\], (-?)m\[(\d)\]\[(\d)\]\)',e)
        return (-1 if q[1] else 1, -1 if q[2] else 1,(int(q[3]),int(q[4])),-1 if q[5] else 1,(int(q[6]),int(q[7])))
    hyps=[];vals={}
    def sg(s,t): return ('-%s'%t if s<0 else t)
    def ml(ij): return 'm %d %d'%ij
    k=P(V('k')); Cc=P(V('C'))
    if tb:
        vals['s'+mid]=(p if msgn>0 else -p); vals['c'+mid]=Cc
        hyps.append('(hs%s : Real.sin %s = %s)'%(mid,mid,sg(msgn,pl))); hyps.append('(hc%s : Real.cos %s = C)'%(mid,mid))
    else:
        vals['c'+mid]=p; vals['s'+mid]=Cc
        hyps.append('(hs%s : Real.sin %s = C)'%(mid,mid)); hyps.append('(hc%s : Real.cos %s = %s)'%(mid,mid,pl))
    ats={}
    for n in (a[0],a[2]):
        s0,s1,y,s2,x=at(main[n]); assert s0==1
        ats[n]=(s1,y,s2,x)
        Y=M[y[0]][y[1]]*s1; X=M[x[0]][x[1]]*s2
        vals['s'+n]=Y*k; vals['c'+n]=X*k
        hyps.append('(hs%s : Real.sin %s = %s * k)'%(n,n,sg(s1,ml(y)))); hyps.append('(hc%s : Real.cos %s = %s * k)'%(n,n,sg(s2,ml(x))))
    hn=', '.join('hs%s, hc%s'%(n,n) for n in a)
    pr.append('theorem euler%s_main (m : Mat3 ℝ) (E : RotEqs m) (k C %s : ℝ) (hk : k * C = 1) (hC : C * C = 1 - %s * %s)\n    %s :\n    Mat3.fromEuler%s %s = m := by'%(o,' '.join(a),pl,pl,'\n    '.join(' '.join(hyps[i:i+2]) for i in (0,2,4)),o,' '.join(a)))
    pr.append('  have hkk : k * k * (1 - %s * %s) = 1 := by rw [← hC]; linear_combination (k * C + 1) * hk'%(pl,pl))
    pr.append('  unfold Mat3.fromEuler%s\n  rw [%s]'%(o,hn))
    pr.append('  apply mat9_eq')
    def split(Pp):
        # group monomials by (k power, C power)
        g={}
        for mono,c in Pp.d.items():
            kk=mono.count('k'); cc=mono.count('C'); rest=tuple(v for v in mono if v not in 'kC')
            g.setdefault((kk,cc),{})[rest]=c
        return {q:P(v) for q,v in g.items()}
    def pol(Pp):
        out=[]
        for mono,c in Pp.d.items():
            t='(%s)'%c
            for v in mono: t+=' * '+('m %s %s'%(v[1],v[2]) if v[0]=='m' else v)
            out.append(t)
        return ' + '.join(out) if out else '0'
    for i in range(3):
        for j in range(3):
            e=d['ents'][i,j]
            val=eval(e,dict(vals))
            if not isinstance(val,P): raise Exception
            g=split(val-M[i][j])
            keys=set(g)-{(0,0)}
            if not g:
                pr.append('  · ring')
            elif keys=={(1,1)}:
                # g11 * kC + g00 ; g11 = -g00
                pr.append('  · linear_combination (%s) * hk'%pol(g[1,1]))
            elif keys=={(2,0)}:
                T=g[2,0]-M[i][j]*(P(PC(1))-p*p)
                pr.append('  · linear_combination k * k * (%s) + m %d %d * hkk'%(comb(T),i,j))
            else: raise Exception((o,i,j,keys))
    pr.append('')
    # degenerate branches: value v of p
    sgn=[]
    for bi,v in ((1,-1),(2,1)):
        b=d['brs'][bi]
        midv=b[mid].replace('.f','')
        sc={'pi/2':(1,0),'-pi/2':(-1,0),'pi':(0,-1),'0':(0,1)}[midv]
        n0,n2=a[0],a[2]
        assert b[n2] in('0','0.f')
        s0,s1,y,s2,x=at(b[n0]); assert s2==1
        vals2={'s'+mid:P(PC(sc[0])),'c'+mid:P(PC(sc[1])),'s'+n2:P(PC(0)),'c'+n2:P(PC(1)),
               's'+n0:M[y[0]][y[1]]*(s1*s0),'c'+n0:M[x[0]][x[1]]}
        vals2={q:(w if isinstance(w,P) else P(PC(w))) for q,w in vals2.items()}
        extra={'hp':p-v}
        zs=[]
        for t in range(3):
            if t!=pj: zs.append((pi,t))
            if t!=pi: zs.append((t,pj))
        for (q,w) in zs: extra['z%d%d'%(q,w)]=M[q][w]
        nm=('neg' if v<0 else 'pos')
        zh=' '.join('(z%d%d : m %d %d = 0)'%(q,w,q,w) for q,w in zs)
        def num(t): return '%d'%t
        pr.append('theorem euler%s_%s (m : Mat3 ℝ) (E : RotEqs m) (%s : ℝ) (hp : %s = %d) %s\n    (hs%s : Real.sin %s = %d) (hc%s : Real.cos %s = %d) (hs%s : Real.sin %s = 0) (hc%s : Real.cos %s = 1)\n    (hs%s : Real.sin %s = %s) (hc%s : Real.cos %s = %s) :\n    Mat3.fromEuler%s %s = m := by'%(o,nm,' '.join(a),pl,v,zh,mid,mid,sc[0],mid,mid,sc[1],n2,n2,n2,n2,n0,n0,sg(s1*s0,ml(y)),n0,n0,ml(x),o,' '.join(a)))
        pr.append('  unfold Mat3.fromEuler%s\n  rw [%s]\n  apply mat9_eq'%(o,hn))
        for i in range(3):
            for j in range(3):
                val=eval(d['ents'][i,j],dict(vals2))
                pr.append('  · linear_combination %s'%comb(val-M[i][j],extra))
        pr.append('')
        sgn.append((s0,s1,y,x))
    # roundtrip
    zs=[]
    for t in range(3):
        if t!=pj: zs.append((pi,t))
        if t!=pi: zs.append((t,pj))
    rowz=[(pi,t) for t in range(3) if t!=pj]; colz=[(t,pj) for t in range(3) if t!=pi]
    thm='theorem euler%s_roundtrip (m : Mat3 ℝ) (hm : Spec.IsRotation m) :\n    Mat3.fromEuler%s (Mat3.toEuler%s m).x (Mat3.toEuler%s m).y (Mat3.toEuler%s m).z = m := by\n  have E := rotEqs hm\n'%(o,o,o,o,o)
    thm+='  have hr : %s = 1 := by linear_combination E.r%d%d\n'%(' + '.join('%s * %s'%(ml(z),ml(z)) for z in rowz+[(pi,pj)]),pi,pi)
    thm+='  have hc : %s = 1 := by linear_combination E.c%d%d\n'%(' + '.join('%s * %s'%(ml(z),ml(z)) for z in colz+[(pi,pj)]),pj,pj)
    thm+='  by_cases h1 : %s < 1\n  · by_cases h2 : %s > -1\n'%(pl,pl)
    thm+='    · have hpos : 0 < 1 - %s * %s := by nlinarith\n'%(pl,pl)
    thm+='      have hC := Real.mul_self_sqrt hpos.le\n      have hC0 := Real.sqrt_pos.2 hpos\n'
    if tb:
        if msgn>0: thm+='      obtain ⟨s1, c1⟩ := arcsin_sc h2 h1\n'
        else: thm+='      obtain ⟨s1, c1⟩ := arcsin_sc (p := -(%s)) (by linarith) (by linarith)\n      rw [neg_mul_neg] at c1\n'%pl
    else: thm+='      obtain ⟨c1, s1⟩ := arccos_sc h2 h1\n'
    for q,n in (('0',a[0]),('2',a[2])):
        s1,y,s2,x=ats[n]
        src='E.c%d%d'%(pj,pj) if set((y,x))==set(colz) else 'E.r%d%d'%(pi,pi)
        assert set((y,x)) in (set(colz),set(rowz))
        thm+='      obtain ⟨s%s, c%s⟩ := atan2_sc (x := %s) (y := %s) hC0 (by rw [hC]; linear_combination %s)\n'%('a'+q,'a'+q,sg(s2,'(%s)'%ml(x)) ,sg(s1,'(%s)'%ml(y)),src)
    thm+='      have e : Mat3.toEuler%s m = ⟨%s⟩ := by\n        unfold Mat3.toEuler%s; rw [if_pos h1, if_pos h2]\n      rw [e]\n'%(o,', '.join(B[0]),o)
    thm+='      exact euler%s_main m E (1 / Real.sqrt (1 - %s * %s)) _ _ _ _ (one_div_mul_cancel (ne_of_gt hC0)) hC s1 c1 sa0 ca0 sa2 ca2\n'%(o,pl,pl)
    for bi,(s0,s1,y,x) in ((1,sgn[0]),(2,sgn[1])):
        ind='    ' if bi==1 else '  '
        v=-1 if bi==1 else 1
        b=d['brs'][bi]; midv=b[mid].replace('.f','')
        if bi==1: thm+='    · have hp : %s = -1 := by nlinarith [not_lt.1 h2]\n'%pl
        else: thm+='  · have hp : %s = 1 := by nlinarith [not_lt.1 h1]\n'%pl
        i2=ind+'  '
        thm+=i2+'rw [hp] at hr hc\n'
        for z in rowz: thm+=i2+'have z%d%d : %s = 0 := by nlinarith\n'%(z[0],z[1],ml(z))
        for z in colz: thm+=i2+'have z%d%d : %s = 0 := by nlinarith\n'%(z[0],z[1],ml(z))
        # x^2+y^2=1
        T=M[x[0]][x[1]]*M[x[0]][x[1]]+M[y[0]][y[1]]*M[y[0]][y[1]]-1
        extra={'hp':p-v}
        for z in zs: extra['z%d%d'%z]=M[z[0]][z[1]]
        thm+=i2+'obtain ⟨sa, ca⟩ := atan2_sc_one (x := %s) (y := %s) (by linear_combination %s)\n'%(ml(x),sg(s1,'(%s)'%ml(y)),comb(T,extra))
        cond='if_pos h1, if_neg h2' if bi==1 else 'if_neg h1'
        thm+=i2+'have e : Mat3.toEuler%s m = ⟨%s⟩ := by\n%s  unfold Mat3.toEuler%s; rw [%s]\n%srw [e]\n'%(o,', '.join(B[bi]),i2,o,cond,i2)
        tr={'pi/2':('Real.sin_pi_div_two','Real.cos_pi_div_two'),'-pi/2':None,'pi':('(by simp)','(by simp)'),'0':('(by simp)','(by simp)')}[midv]
        if midv=='-pi/2': tr=('(by rw [neg_div, Real.sin_neg, Real.sin_pi_div_two])','(by rw [neg_div, Real.cos_neg, Real.cos_pi_div_two])')
        if s0<0:
            sc0='(by rw [Real.sin_neg, sa]%s)'%('; ring' if s1<0 else ''); cc0='(by rw [Real.cos_neg, ca])'
        else: sc0,cc0='sa','ca'
        thm+=i2+'exact euler%s_%s m E _ _ _ hp %s %s %s (by simp) (by simp) %s %s\n'%(o,'neg' if bi==1 else 'pos',' '.join('z%d%d'%z for z in zs),tr[0],tr[1],sc0,cc0)
    pr.append(thm)
    fe.append('Mat3.fromEuler%s a b c = Mat3.rotate%s a * Mat3.rotate%s b * Mat3.rotate%s c'%(o,o[0],o[1],o[2]))
mo.append('end\nend Mat3\n\nnamespace Quat\nnoncomputable section\n')
qs=[]
for o in orders:
    mo.append('/-- src/Math/Quat.cpp:692-703 `FromEuler%s`. -/\ndef fromEuler%s (a b c : ℝ) : Quat ℝ := normalized (mul (mul (rotate%s a) (rotate%s b)) (rotate%s c))\n'%(o,o,o[0],o[1],o[2]))
    mo.append('/-- src/Math/Quat.cpp:724-735 `ToEuler%s`. -/\ndef toEuler%s (q : Quat ℝ) : V3 ℝ := Mat3.toEuler%s (toFloat3x3 q)\n'%(o,o,o))
mo.append('end\nend Quat\nend MGL')
pr.append('end MGL')
open('/verif/lean/Verif/Model/Euler.lean','w').write('\n'.join(mo)+'\n')
open('/verif/lean/Verif/Proofs/Euler.lean','w').write('\n'.join(pr)+'\n')

pp=["""import Verif.Proofs.Euler
import Verif.Props.Quat

/-! C56: Euler angles, all twelve orders. `RotateX/Y/Z` are pinned down by C40 (they are the matrices of
the rotations about the coordinate axes). -/

namespace MGL
open V3

/-- C56: the matrix built from three Euler angles is the product of the three axis rotations, in the
order named by the function (the Tait-Bryan orders). -/
theorem C56_fromEuler_three_axes (a b c : ℝ) :
    %s := by
  refine ⟨?_, ?_, ?_, ?_, ?_, ?_⟩ <;> ext i j <;> rw [Matrix.mul_apply, Fin.sum_univ_three] <;>
    simp only [Matrix.mul_apply, Fin.sum_univ_three] <;> fin_cases i <;> fin_cases j <;>
    simp [-mul_eq_mul_left_iff, -mul_eq_mul_right_iff, %s, Mat3.rotateX, Mat3.rotateY, Mat3.rotateZ] <;> ring

/-- C56: likewise for the proper Euler orders, in which the first and last axis agree. -/
theorem C56_fromEuler_two_axes (a b c : ℝ) :
    %s := by
  refine ⟨?_, ?_, ?_, ?_, ?_, ?_⟩ <;> ext i j <;> rw [Matrix.mul_apply, Fin.sum_univ_three] <;>
    simp only [Matrix.mul_apply, Fin.sum_univ_three] <;> fin_cases i <;> fin_cases j <;>
    simp [-mul_eq_mul_left_iff, -mul_eq_mul_right_iff, %s, Mat3.rotateX, Mat3.rotateY, Mat3.rotateZ] <;> ring

/-- C56: for every rotation matrix, the angles extracted from it rebuild it, in all twelve orders and
in the gimbal-lock branches. -/
theorem C56_toEuler_roundtrip (m : Matrix (Fin 3) (Fin 3) ℝ) (hm : Spec.IsRotation m) :
    %s :=
  ⟨%s⟩

/-- C56: every product of axis rotations is a rotation, so extraction after construction reproduces the
matrix (the angles themselves are not unique). -/
theorem C56_from_to_from (a b c : ℝ) :
    let m := Mat3.fromEulerXYZ a b c
    Spec.IsRotation m ∧ Mat3.fromEulerXYZ (Mat3.toEulerXYZ m).x (Mat3.toEulerXYZ m).y (Mat3.toEulerXYZ m).z = m := by
  intro m
  have n : V3.lenSq (⟨1, 0, 0⟩ : V3 ℝ) = 1 := by norm_num [V3.lenSq, V3.dot]
  have h : Spec.IsRotation m := by
    show Spec.IsRotation (Mat3.fromEulerXYZ a b c)
    rw [(C56_fromEuler_three_axes a b c).1]
    exact rotation_mul (rotation_mul (Quat.C40_axis_rotations _ n a a).2.2.2.2.1 (Quat.C40_axis_rotations _ n b b).2.2.2.2.2.1)
      (Quat.C40_axis_rotations _ n c c).2.2.2.2.2.2.1
  exact ⟨h, (C56_toEuler_roundtrip m h).1⟩

/-- Gimbal lock is reached: a quarter turn about y has `m 0 2 = 1`. -/
example : Spec.IsRotation (Mat3.rotateY (Real.pi / 2)) ∧ Mat3.rotateY (Real.pi / 2) 0 2 = 1 := by
  refine ⟨(Quat.C40_axis_rotations ⟨1, 0, 0⟩ (by norm_num [V3.lenSq, V3.dot]) _ 0).2.2.2.2.2.1, ?_⟩
  simp [Mat3.rotateY]

/-- C56: the quaternion versions represent the same rotations: `FromEuler` is a unit quaternion whose
matrix is the matrix version. -/
theorem C56_quat_fromEuler (a b c : ℝ) :
    %s := by
  have n : V3.lenSq (⟨1, 0, 0⟩ : V3 ℝ) = 1 := by norm_num [V3.lenSq, V3.dot]
  have ux : V3.lenSq (⟨1, 0, 0⟩ : V3 ℝ) = 1 := by norm_num [V3.lenSq, V3.dot]
  have uy : V3.lenSq (⟨0, 1, 0⟩ : V3 ℝ) = 1 := by norm_num [V3.lenSq, V3.dot]
  have uz : V3.lenSq (⟨0, 0, 1⟩ : V3 ℝ) = 1 := by norm_num [V3.lenSq, V3.dot]
  have nx : ∀ t, Quat.normSq (Quat.rotateX t) = 1 := fun t => (Quat.C40_axisAngle _ t ux).1
  have ny : ∀ t, Quat.normSq (Quat.rotateY t) = 1 := fun t => (Quat.C40_axisAngle _ t uy).1
  have nz : ∀ t, Quat.normSq (Quat.rotateZ t) = 1 := fun t => (Quat.C40_axisAngle _ t uz).1
  have mx : ∀ t, Quat.toFloat3x3 (Quat.rotateX t) = Mat3.rotateX t := fun t => (Quat.C40_axis_rotations _ n t t).2.1
  have my : ∀ t, Quat.toFloat3x3 (Quat.rotateY t) = Mat3.rotateY t := fun t => (Quat.C40_axis_rotations _ n t t).2.2.1
  have mz : ∀ t, Quat.toFloat3x3 (Quat.rotateZ t) = Mat3.rotateZ t := fun t => (Quat.C40_axis_rotations _ n t t).2.2.2.1
  have key : ∀ p q r : Quat ℝ, Quat.normSq p = 1 → Quat.normSq q = 1 → Quat.normSq r = 1 →
      Quat.normSq (Quat.normalized (Quat.mul (Quat.mul p q) r)) = 1 ∧
      Quat.toFloat3x3 (Quat.normalized (Quat.mul (Quat.mul p q) r)) = Quat.toFloat3x3 p * Quat.toFloat3x3 q * Quat.toFloat3x3 r := by
    intro p q r hp hq hr
    obtain ⟨h1, _, h2⟩ := Quat.C40_compose p q hp hq
    obtain ⟨h3, _, h4⟩ := Quat.C40_compose _ r h1 hr
    have e : Quat.normalized (Quat.mul (Quat.mul p q) r) = Quat.mul (Quat.mul p q) r := by
      unfold Quat.normalized; rw [Quat.normalize_unit _ h3]
    rw [e, h4, h2]; exact ⟨h3, rfl⟩
  obtain ⟨t1, t2, t3, t4, t5, t6⟩ := C56_fromEuler_three_axes a b c
  obtain ⟨p1, p2, p3, p4, p5, p6⟩ := C56_fromEuler_two_axes a b c
  refine ⟨%s⟩

/-- C56: for every unit quaternion the extracted angles rebuild the same rotation. -/
theorem C56_quat_toEuler_roundtrip (q : Quat ℝ) (h : Quat.normSq q = 1) :
    %s :=
  ⟨%s⟩

end MGL
"""%(' ∧\n    '.join(fe[:6]),', '.join('Mat3.fromEuler'+o for o in orders[:6]),' ∧\n    '.join(fe[6:]),', '.join('Mat3.fromEuler'+o for o in orders[6:]),
 ' ∧\n    '.join('Mat3.fromEuler%s (Mat3.toEuler%s m).x (Mat3.toEuler%s m).y (Mat3.toEuler%s m).z = m'%(o,o,o,o) for o in orders),
 ', '.join('euler%s_roundtrip m hm'%o for o in orders),
 ' ∧\n    '.join('(Quat.normSq (Quat.fromEuler%s a b c) = 1 ∧ Quat.toFloat3x3 (Quat.fromEuler%s a b c) = Mat3.fromEuler%s a b c)'%(o,o,o) for o in orders),
 ',\n    '.join('by rw [%s%d, ← m%s, ← m%s, ← m%s]; exact key _ _ _ (n%s a) (n%s b) (n%s c)'%('t' if i<6 else 'p',i%6+1,o[0].lower(),o[1].lower(),o[2].lower(),o[0].lower(),o[1].lower(),o[2].lower()) for i,o in enumerate(orders)),
 ' ∧\n    '.join('Mat3.fromEuler%s (Quat.toEuler%s q).x (Quat.toEuler%s q).y (Quat.toEuler%s q).z = Quat.toFloat3x3 q'%(o,o,o,o) for o in orders),
 ', '.join('euler%s_roundtrip _ ((Quat.C40_matrix q).2.1 h)'%o for o in orders))]
open('/verif/lean/Verif/Props/Euler.lean','w').write(pp[0])
