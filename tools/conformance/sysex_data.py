import sys,re
sys.path.insert(0,__import__('os').path.dirname(__import__('os').path.abspath(__file__)))
from run import *
OUT=sys.argv[1]
def cases(n):
    src=open(f'{REPO}/tests/sysex{n}_test_data.cpp').read()
    t=cpp.tokenize(src);i=next(k for k,x in enumerate(t) if x==f'midi::sysex{n}_test_cases' or x==f'sysex{n}_test_cases')
    while t[i]!='{': i+=1
    e=P(t,i).initexpr();I=Interp();res=[]
    for c in e[1]:
        f=c[1]
        pk=[I.ev(x) for x in f[1][1]]
        ws=[[w.v for w in p.v] for p in pk]
        sx=f[-1]
        if sx[0]=='list' and not sx[1]: m,d=0,[]
        else:
            a=[I.ev(x) for x in (sx[2] if sx[0]=='brace' else sx[1])]
            m=a[0].v;d=[b.v for b in a[1].v] if len(a)>1 else []
        st=I.ev(f[2]).v if n==8 else None
        res.append((c[1][0][1],ws,st,m,d))
    return res
hx=lambda v,w:f'0x{v:0{w}X}'
def term(c):
    d,ws,st,m,b=c
    p='['+', '.join('Packet.ofWords ['+', '.join(hx(w,8) for w in p)+']' for p in ws)+']'
    s=f'⟨{hx(m,6)}, ['+', '.join(hx(x,2) for x in b)+']⟩'
    x=f'({p},{"" if st is None else " "+hx(st,2)+","} {s})'
    import textwrap
    return '  -- '+d.strip('"')+'\n'+textwrap.fill(x,116,initial_indent='  ',subsequent_indent='    ',break_long_words=False)
c7,c8=cases(7),cases(8)
def joinc(cs): 
    ts=[term(c) for c in cs];return ',\n'.join(ts)
open(OUT+'/SysexTestData.lean','w').write(f'''import Verif.Conformance.Prelude
import Verif.Model.Collector
import Verif.Model.Senders
import Verif.Model.SysexPackets
import Verif.Model.Defaults

/-!
The collectors and the senders of system exclusive messages on the test data of tests/sysex7_test_data.cpp and
tests/sysex8_test_data.cpp. The data is generated by tools/conformance, the statements follow sysex7_collector_tests.cpp,
sysex8_collector_tests.cpp and sysex_tests.cpp 590-650.
-/

namespace Midi.Conformance

open Midi

/-- tests/sysex7_test_data.cpp: packets and the message they carry. -/
def sysex7Cases : List (List Packet × Sysex) := [
{joinc(c7)}]

/-- tests/sysex8_test_data.cpp: packets, stream and the message they carry. -/
def sysex8Cases : List (List Packet × Byte × Sysex) := [
{joinc(c8)}]

/-- What the callback of a fresh collector receives. -/
def collected7 (ps : List Packet) : Except Fault (List Sysex) := do return (← Collector7.feedAll {{}} ps).2
/-- What the callback of a fresh collector receives. -/
def collected8 (ps : List Packet) : Except Fault (List (Sysex × Byte)) := do return (← Collector8.feedAll {{}} ps).2

-- sysex7_collector, regular_collect: lines 67-84
example : sysex7Cases.all (fun c => holds do return (← collected7 c.1) == [c.2]) = true := by decide +kernel

-- sysex7_collector, regular_collect: lines 86-108, one collector for all cases
example : holds (do return (← collected7 (sysex7Cases.flatMap (·.1))) == sysex7Cases.map (·.2)) = true := by decide +kernel

-- sysex, as_sysex7_packets: lines 607-616 (also what send_sysex7 sends, lines 591-603)
example : sysex7Cases.all (fun c => holds do return (← asSysex7Packets c.2 (c.1.getD 0 {{}}).group) == c.1) = true := by
  decide +kernel

-- sysex8_collector, regular_collect: lines 254-272
example : sysex8Cases.all (fun c => holds do return (← collected8 c.1) == [(c.2.2, c.2.1)]) = true := by decide +kernel

-- sysex8_collector, regular_collect: lines 274-297, one collector for all cases
example : holds (do
    return (← collected8 (sysex8Cases.flatMap (·.1))) == sysex8Cases.map (fun c => (c.2.2, c.2.1))) = true := by
  decide +kernel

-- sysex, as_sysex8_packets: lines 637-648 (also what send_sysex8 sends, lines 620-633)
example : sysex8Cases.all (fun c => holds do
    return (← asSysex8Packets c.2.2 (c.1.getD 0 {{}}).byte3 (c.1.getD 0 {{}}).group) == c.1) = true := by decide +kernel

end Midi.Conformance
''')
