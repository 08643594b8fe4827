import sys,re,os
sys.path.insert(0,__import__('os').path.dirname(__import__('os').path.abspath(__file__)))
import cpp,interp,tables
from interp import *
load_sigs();load_consts()
tables.CONST.update(group_profile=tables.L('CI.groupProfile','ProfileDestination','profile_destination'),function_block_profile=tables.L('CI.functionBlockProfile','ProfileDestination','profile_destination'))
for m in re.finditer(r'constexpr std::string_view (\w+)\{ "([^"]*)" \}',open(REPO+'/inc/midi/capability_inquiry.h').read()):
    CONST[('property_exchange::tags::' if m.group(1)[0].islower() else 'property_exchange::')+m.group(1)]=V('string','c',m.group(2))
def source(f):
    """tests, or the examples of the documentation as tests: an assertion is an expectation, and so is a condition"""
    if not f.endswith('.examples'): return open(f'{REPO}/tests/{f}.cpp').read()
    src=open(f'{REPO}/docs/{f}.cpp').read()
    src=re.sub(r'^void (\w+)\(\)$',r'TEST(docs, \1)',src,flags=re.M)
    src=re.sub(r'^(\s*)if \(auto (\w+) = (.*)\)\n\s*\{',r'\1{ const auto \2 = \3; EXPECT_TRUE(\2);\n',src,flags=re.M)
    src=re.sub(r'^(\s*)if \((is_\w+\(.*\))\)\n\s*\{',r'\1{ EXPECT_TRUE(\2);\n',src,flags=re.M)
    # the array of three packets that is filled through a pointer
    m=re.search(r'sysex(\d)_packet p2\[\] = \{(.*?)\};.*?\+\+dest;\n    \}',src,re.S)
    if m:
        n,data=(6,[0x7D]+list(range(1,16))) if m.group(1)=='7' else (13,list(range(200,230)))
        t=''.join(f'auto p2_{i} = {x};' for i,x in enumerate(re.findall(r'make_sysex\d_\w+\([^()]*\)',m.group(2))))
        t+=''.join(f'p2_{i//n}.add_payload_byte({x});' for i,x in enumerate(data))
        src=src[:m.start()]+t+'\n'*m.group(0).count('\n')+src[m.end():]
        src=re.sub(r'p2\[(\d)\]',r'p2_\1',src)
    return re.sub(r'\bassert\(','EXPECT_TRUE(',src)
def main(files,verbose=True):
    tot=[0,0];allunk={}
    for f in files:
        src=source(f);unk={};st=[0,0];ex=0;groups=[]
        for nm,line,ss in cpp.tests(src):
            I=Interp()
            setup=FIXTURES.get(f)
            if setup: setup(I)
            I.run(ss)
            I.finish()
            st[0]+=I.stats[0];st[1]+=I.stats[1]
            for k,v in I.unk.items(): unk.setdefault(k,[]).extend(v)
            groups.append((nm,line,I.out,I.cx.binds))
        print(f,'expectations',st[0],'translated',st[1],'emitted',sum(len(g[2]) for g in groups))
        if verbose:
            for k,v in sorted(unk.items(),key=lambda x:-len(x[1]))[:25]: print('    ',len(v),k,sorted(set(v))[:6])
        yield f,groups
def fx_cv(I):
    I.env[0]['make_packet']=V('lambda','fn',('lambda',['t','t',',','t','g',',','t','s',',','t','d'],None))
def mk(s,t,g,st,d): return s.app  # placeholder
FIXTURES={}
if __name__=='__main__':
    fs=sys.argv[1:] or [os.path.basename(x)[:-4] for x in sorted(glob.glob(REPO+'/tests/*_tests.cpp'))]
    for f,gs in main(fs): pass
