import sys,re,os,textwrap
sys.path.insert(0,__import__('os').path.dirname(__import__('os').path.abspath(__file__)))
from run import *
OUT=sys.argv[1]
skipped=[]
CAMEL=lambda f:''.join(x.capitalize() for x in re.split('[_.]',f))
def needs(t): return set(re.findall(r'\bx\d+\b',t))
def wrap(s,ind):
    return textwrap.fill(s,118,subsequent_indent=ind+'  ',initial_indent=ind,break_long_words=False,break_on_hyphens=False)
def gen(f,groups,size):
    src=f'/repo/tests/{f}.cpp'
    o=[]
    n=0
    for nm,line,out,binds in groups:
        bd={b[0]:b for b in binds};order={b[0]:i for i,b in enumerate(binds)}
        chunks=[];cur=[];w=0
        for c in out:
            need=set();st=list(needs(c[1]))
            while st:
                x=st.pop()
                if x in need: continue
                need.add(x);st+=needs(bd[x][2])
            if sum(len(bd[x][2]) for x in need)>6000: skipped.append((nm,c[0]));continue
            cur.append((c,need));w+=1
            if w>=size: chunks.append(cur);cur=[];w=0
        if cur: chunks.append(cur)
        for ch in chunks:
            need=set().union(*[x[1] for x in ch]);ls=[c[0] for c,_ in ch]
            # names in order
            ren={x:f'x{i+1}' for i,x in enumerate(sorted(need,key=order.get))}
            rn=lambda t:re.sub(r'\bx\d+\b',lambda m:ren[m.group(0)],t)
            body=[]
            for x in sorted(need,key=order.get):
                _,op,t,lt=bd[x]
                body.append(wrap(f'let {ren[x]} {op} {rn(t)}','  '))
            # group the same line
            cs=[];seen=set()
            for (l,t,_),_ in ch:
                t=rn(t)
                if t in seen: continue
                seen.add(t);cs.append(t)
            if not cs: continue
            body.append(wrap('return '+' && '.join(cs),'  '))
            lo,hi=min(ls),max(ls)
            o.append(f'-- {nm}: line{"s" if lo!=hi else ""} {lo}'+(f'-{hi}' if lo!=hi else '')+'\nexample : holds (do\n'+'\n'.join(body)+') = true := by decide +kernel\n')
            n+=len(cs)
    return o,n
HEAD='''import Verif.Conformance.Prelude
{imports}

/-!
{what} about the model{part}. Generated by tools/conformance.
-/

namespace Midi.Conformance

open Midi

{body}
end Midi.Conformance
'''
MODS=['ByteStream','CapabilityInquiry','Collector','Defaults','FlexData','Jitter','PitchTypes','Senders','Stream','Sysex','SysexPackets','TextFormat','Types','UniversalSysex','Reentrant']
if __name__=='__main__':
    fs=sys.argv[2:] or [os.path.basename(x)[:-4] for x in sorted(glob.glob(REPO+'/tests/*_tests.cpp'))]
    tot=0
    for f,gs in main(fs,False):
        o,n=gen(f,gs,8)
        if not n: continue
        tot+=n
        open(f'{OUT}/{CAMEL(f)}.lean','w').write(HEAD.format(what=f'The assertions in docs/{f}.cpp' if '.' in f else f'The expectations of tests/{f}.cpp',part='',imports='\n'.join('import Verif.Model.'+m for m in MODS),body='\n'.join(o)))
    print('total',tot)
    print('skipped',len(skipped),sorted(set(skipped))[:12])
