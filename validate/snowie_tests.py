def lit(s): return 't!"'+s.replace('\\','\\\\').replace('"','\\"').replace('\n','\\n').replace('\r','\\r').replace('\t','\\t')+'"'
def lines(f): 
    s=open('/repo/bglib/record/snowietxt/'+f,newline='').read()
    return s.splitlines(True)
out='''import Verif.Model.SnowieLine
/-
Evidence for the model of records: the tests of `record/snowietxt_test.py`, with the record
`record/snowietxt/1857680.txt`, whole, and the record `zoonk-nori-2009Jan151857.txt`.  (The SHA sums are not modelled.)
-/
namespace Bglib.Check
open Bglib Bglib.Snowie

'''
def emit(name,f,doc):
    global out
    L=lines(f)
    out+='/-- %s -/\ndef %s : List Text := [\n'%(doc,name)
    out+=',\n'.join('  '+lit(l) for l in L)+']\n\n'
emit('record1','1857680.txt','`record/snowietxt/1857680.txt`')
emit('record2','zoonk-nori-2009Jan151857.txt','`record/snowietxt/zoonk-nori-2009Jan151857.txt`')
out+='''/-- The lines with their kinds, computed once. -/
def kindsAre (ls : List Text) (ks : List Kind) : Bool := ls.map kindOf == ks

'''
open('/tmp/rec.lean','w').write(out)
import re
def kind(l):
    if l.strip()=='' : return '.empty'
    if re.match(r' \d+ point match',l): return '.matchLength'
    if re.match(r' *Game \d+',l): return '.gameHeader'
    m=re.match(r' *(\d+)\) +',l)
    if m: return '.moves %s'%m.group(1)
    if re.match(r' *Wins',l): return '.result'
    return '.playerHeader'
out=out[:out.index('/-- The lines with')]
def wrap(items,w=100):
    r='';cur='  '
    for i,x in enumerate(items):
        t=x+(', ' if i<len(items)-1 else '')
        if len(cur)+len(t)>w: r+=cur.rstrip()+'\n'; cur='  '
        cur+=t
    return r+cur
for n,f in (('1','1857680.txt'),('2','zoonk-nori-2009Jan151857.txt')):
    ks=[kind(l) for l in lines(f)]
    out+='/-- What the lines of `record%s` are. -/\ndef kinds%s : List Kind := [\n%s]\n\n'%(n,n,wrap(ks))
    out+='theorem record%s_kinds : record%s.map kindOf = kinds%s := by decide +kernel\n\n'%(n,n,n)
out+='''/-- The lines of a record with kinds already known. -/
def known (ts : List Text) (ks : List Kind) : List Line := List.zipWith (fun k t => ⟨k, t⟩) ks ts

theorem known_eq : ∀ {ts : List Text} {ks : List Kind}, ts.map kindOf = ks → ts.map lineOf = known ts ks
  | [], _, rfl => rfl
  | t :: ts, _, rfl => congrArg (lineOf t :: ·) (known_eq (ts := ts) rfl)

'''
exp=open('/repo/bglib/record/snowietxt_test.py').read()
blocks=[b for b in re.findall(r"s = '''\\\n(.*?)'''",exp,re.S)]
def lit2(b): return '('+' ++\n    '.join(lit(x) for x in b.splitlines(True))+')'
out+='''/-- `startswith` and `endswith` -/
def starts (s p : Text) : Bool := p.isPrefixOf s
def ends (s p : Text) : Bool := p.isSuffixOf s

/-- `test_1857680`, without the sum -/
example : validate 0 (record1.map lineOf) = .ok () := by rw [known_eq record1_kinds]; decide +kernel

/-- `test_bad` -/
example : validate 0 ([t!"hogehoge\\n", t!"zooba\\n"].map lineOf) = .error .valueError := by decide +kernel

/-- `test_too_long` -/
example : validate 10 ((List.replicate 10 t!"hoge\\n").map lineOf) = .error .valueError := by decide +kernel

/-- `test_chop_1857680` -/
example : (chop (record1.map lineOf)).raised = none ∧ (chop (record1.map lineOf)).values.length = 3 ∧
'''
g=[]
for i,b in enumerate(blocks[:6]):
    g.append('    %s ((chop (record1.map lineOf)).values.getD %d []) %s = true'%(('starts','ends')[i%2],i//2,lit2(b)))
out+=' ∧\n'.join(g)+''' := by
  rw [known_eq record1_kinds]; decide +kernel

/-- `test_chop_zoonk_nori_2009Jan151857` -/
example : (chop (record2.map lineOf)).raised = none ∧ (chop (record2.map lineOf)).values.length = 1 ∧
    starts ((chop (record2.map lineOf)).values.getD 0 []) %s = true := by
  rw [known_eq record2_kinds]; decide +kernel

end Bglib.Check
'''%lit2(blocks[6])
open('/verif/lean/Verif/Check/Records.lean','w').write(out)
