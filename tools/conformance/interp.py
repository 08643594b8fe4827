"""Interpreter of the unit tests: values are constants or terms of the Lean model."""
import re,glob,os,sys
from fractions import Fraction
sys.path.insert(0,os.path.dirname(__file__))
import cpp
from cpp import P,PE
REPO='/repo'
INT={'int':(32,1),'unsigned int':(32,0),'unsigned':(32,0),'unsigned char':(8,0),'char':(8,1),'long':(64,1),'size_t':(64,0),'uint8_t':(8,0),'uint16_t':(16,0),'uint32_t':(32,0),
 'uint64_t':(64,0),'int8_t':(8,1),'int16_t':(16,1),'int32_t':(32,1),'int64_t':(64,1),'bool':(1,0)}
for n in ('uint2_t uint3_t uint4_t uint7_t byte group_t channel_t status_t note_nr_t controller_t program_t protocol_t extensions_t subtype_t '
          'packet_type packet_format packet_address midi2_per_note_flags note_management_flags').split(): INT[n]=(8,0)
for n in 'uint14_t type_t'.split(): INT[n]=(16,0)
for n in 'uint28_t manufacturer_t muid_t'.split(): INT[n]=(32,0)
class Un(Exception): pass
def fpround(q,f):
    p=24 if f=='float' else 53
    if q==0: return q
    a=abs(q);e=0
    while a>=2**p: a/=2;e+=1
    while a<2**(p-1): a*=2;e-=1
    n=a.numerator//a.denominator;r=a-n
    if r>Fraction(1,2) or (r==Fraction(1,2) and n%2): n+=1
    x=Fraction(n)*Fraction(2)**e
    return x if q>0 else -x
class V:
    """k: 'c' constant (int/bool/Fraction/str/None), 'l' Lean term of type lt, 'list' list of V, 'opt' Lean Option of lt with element C++ type"""
    def __init__(s,ty,k,v,lt=None,**kw): s.ty=ty;s.k=k;s.v=v;s.lt=lt;s.__dict__.update(kw)
    def __repr__(s): return f'<{s.ty}:{s.k}:{s.v}:{s.lt}>'
def ci(n,ty='int'): return V(ty,'c',n)
def norm(n):
    n=re.sub(r'^(std|midi)::','',n)
    n=re.sub(r'\b(midi|std|ci|universal_sysex)::','',n)
    return n
# constants of the headers
CONST={}
def load_consts():
    for f in sorted(glob.glob(REPO+'/inc/midi/*.h')):
        t=cpp.tokenize(open(f).read());ns=[];i=0;stack=[]
        while i<len(t):
            if t[i] in('namespace',) and cpp.isid(t[i+1]):
                j=i+1;nm=[]
                while t[j]!='{' and t[j]!=';': 
                    if cpp.isid(t[j]): nm.append(str(t[j]))
                    j+=1
                if t[j]=='{': stack.append('::'.join(nm));i=j+1;continue
            if t[i] in ('struct','class') and t[i-1]!='enum':
                j=i+1;nm=t[i+1]
                while t[j] not in('{',';'): j+=1
                if t[j]=='{': stack.append(str(nm));i=j+1;continue
            if t[i]=='enum':
                j=i+1
                if t[j] in('class','struct'): j+=1
                nm=str(t[j])
                while t[j]!='{': j+=1
                p=P(t,j+1);e=P(t,j).match(j);val=0;p.end=e
                while p.i<e:
                    n=str(p.nx())
                    if p.pk()=='=':
                        p.nx();val=Interp.constexpr(p.cond(),'::'.join(stack))
                    key='::'.join(stack+[nm,n]);CONST[norm(key)]=V(nm,'c',val)
                    INT.setdefault(nm,(8,0));val+=1
                    if p.i<e and p.pk()==',': p.nx()
                i=e+1;continue
            if t[i]=='constexpr' and t[i+1]!='if' :
                p=P(t,i)
                try:
                    d=p.decl()
                    if d and len(d[2])==1 and d[2][0][2] and d[2][0][2][0] in('eq','brace'):
                        init=d[2][0][2];e=init[1] if init[0]=='eq' else init[1][0]
                        val=Interp.constexpr(e,'::'.join(stack))
                        CONST[norm('::'.join(stack+[d[2][0][0]]))]=V(norm(d[1]),'c',val)
                        i=p.i;continue
                except (PE,Un,IndexError): pass
            if t[i]=='{': stack.append('')
            elif t[i]=='}':
                if stack: stack.pop()
            i+=1
# signatures of the Lean model
SIG={}
def load_sigs():
    for f in sorted(glob.glob('/verif/lean/Verif/Model/*.lean')):
        src=open(f).read();src=re.sub(r'/-.*?-/','',src,flags=re.S)
        ns=[]
        for m in re.finditer(r'^(namespace|end|def|abbrev)\s+([\w.\']+)([^\n]*(?:\n[ \t]+[^\n]*)*)',src,re.M):
            k,n,rest=m.groups()
            if k=='namespace': ns.append(n);continue
            if k=='end':
                if ns and ns[-1]==n: ns.pop()
                continue
            q='.'.join(ns+[n]);q=re.sub(r'^Midi\.','',q)
            ps=[];i=0;bad=False
            r=rest
            while True:
                r=r.lstrip()
                if r and r[0] in '({':
                    d=0
                    for j,c in enumerate(r):
                        if c in '({': d+=1
                        elif c in ')}':
                            d-=1
                            if d==0: break
                    b=r[1:j];imp=r[0]=='{';r=r[j+1:]
                    if ':' in b and not imp:
                        nm,ty=b.split(':',1);ty=ty.split(':=')[0].strip()
                        for x in nm.split(): ps.append((x,ty))
                else: break
            if not r.startswith(':') or r.startswith(':='): continue
            ty=re.split(r':=|\bwhere\b|\n\s*\|',r[1:],1)[0].strip()
            ty=ty.rstrip()
            for x in re.findall(r'([^→]+)→',ty): ps.append(('_',x.strip()))
            res=ty.split('→')[-1].strip()
            SIG[q]=(ps,res)
W={'Byte':8,'U16':16,'Word':32}
FORMAT=['.complete','.start','.cont','.fin']
class Ctx:
    def __init__(s): s.binds=[];s.n=0;s.memo={}
    def let(s,op,term,lt):
        if (op,term) in s.memo: return s.memo[(op,term)]
        s.n+=1;n=f'x{s.n}';s.binds.append((n,op,term,lt));s.memo[(op,term)]=n;return n
class Ret(Exception):
    def __init__(s,v): s.v=v
CTOR={};FREE={};METH={};FIELD={};BASES={};SETTER={};BIN={}
def base_chain(ty):
    while ty: yield ty; ty=BASES.get(ty)
def lookup(tab,ty,n):
    for t in base_chain(ty):
        if (t,n) in tab: return tab[(t,n)]
    return None
def blist(bs): return '['+', '.join(f'{b}' for b in bs)+']'
class Interp:
    def __init__(s,fixture=None):
        s.cx=Ctx();s.env=[{}];s.alias=[{}];s.out=[];s.stats=[0,0];s.unk={};s.budget={};s.lens={};s.mocks=[]
    @staticmethod
    def constexpr(e,scope):
        if e[0]=='num': 
            v=Interp.num(e[1])
            return v.v
        if e[0]=='id':
            n=norm(e[1]);sc=norm(scope+'::x')[:-3] if scope else ''
            parts=[x for x in sc.split('::') if x]
            for k in range(len(parts),-1,-1):
                q='::'.join(parts[:k]+[n])
                if q in CONST: return CONST[q].v
            raise Un('const '+n)
        if e[0]=='bin':
            a,b=Interp.constexpr(e[2],scope),Interp.constexpr(e[3],scope)
            return {'<<':lambda:a<<b,'|':lambda:a|b,'-':lambda:a-b,'+':lambda:a+b,'*':lambda:a*b,'&':lambda:a&b}[e[1]]()
        if e[0]=='call' and e[1][0]=='id' and norm(e[1][1]) in INT and len(e[2])==1: return Interp.constexpr(e[2][0],scope)
        if e[0]=='un' and e[1]=='-': return -Interp.constexpr(e[2],scope)
        raise Un('constexpr')
    @staticmethod
    def num(t):
        t=t.replace("'",'')
        if re.match(r'0[xX]',t) : 
            m=re.match(r'(0[xX][0-9a-fA-F]+)([uUlL]*)$',t);n=int(m.group(1),16)
            u='u' in m.group(2).lower() or n>=2**31
            return V('unsigned int' if u else 'int','c',n)
        if re.match(r'0[bB]',t):
            m=re.match(r'0[bB]([01]+)([uUlL]*)$',t);n=int(m.group(1),2)
            return V('unsigned int' if 'u' in m.group(2).lower() or n>=2**31 else 'int','c',n)
        m=re.match(r'(\d+)([uUlL]*)$',t)
        if m: 
            return V('unsigned int' if 'u' in m.group(2).lower() else ('int' if int(m.group(1))<2**31 else 'int64_t'),'c',int(m.group(1)))
        f=t[-1] in 'fF';t=t.rstrip('fFlL')
        return V('float' if f else 'double','c',Fraction(t))
    # environment
    def get(s,n):
        for e in reversed(s.env):
            if n in e:
                if e[n] is None: raise Un('poisoned '+n)
                return e[n]
        return None
    def set(s,n,v):
        for e in reversed(s.env):
            if n in e: e[n]=v;return
        s.env[-1][n]=v
    def ty(s,n):
        n=norm(n)
        for a in reversed(s.alias):
            h,*r=n.split('::',1)
            if h in a: return norm(a[h]+('::'+r[0] if r else ''))
        return n
    # Lean terms
    def app(s,fn,*args,ret,lt=None,opt=None):
        if fn not in SIG: raise KeyError('no signature '+fn)
        ps,res=SIG[fn]
        if len(ps)!=len(args): raise Un(f'arity {fn} {len(ps)} {len(args)}')
        ts=[s.co(a,t) for a,(_,t) in zip(args,ps)]
        q=fn
        term=' '.join([q]+ts)
        m=re.match(r'Except Fault (.*)$',res)
        if m: r=m.group(1);op='←'
        else: r=res;op=':='
        r=r.strip()
        if r.startswith('(') and r.endswith(')'): r=r[1:-1]
        mo=re.match(r'Option (.*)$',r)
        if op=='←': x=s.cx.let('←',term,r)
        else: x='('+term+')'
        if mo: return V(ret,'opt',x,mo.group(1))
        if not re.match(r'x\d+$',x) and r in('Packet','Sysex'): x=s.cx.let(':=',term,r)
        return V(ret,'l',x,r)
    def co(s,v,lt):
        """the Lean term of type lt for v"""
        if lt in W:
            w=W[lt]
            if v.k=='c' and isinstance(v.v,(int,bool)) : return f'{int(v.v)%2**w}'
            if v.k=='c' and isinstance(v.v,str) and len(v.v)==1: return str(ord(v.v))
            if v.k=='l':
                if v.lt==lt: return v.v
                if v.lt in W: return f'({v.v}.setWidth {w})'
                if v.lt=='Nat': return f'(BitVec.ofNat {w} {v.v})'
                if v.lt=='Int': return f'(BitVec.ofInt {w} {v.v})'
                if v.lt=='Format': return f'({v.v}.code.setWidth {w})'
        if lt=='Nat':
            if v.k=='c': return str(int(v.v))
            if v.lt in W: return f'{v.v}.toNat'
            if v.lt=='Nat': return v.v
            if v.lt=='Int': return f'{v.v}.toNat'
        if lt in('Int','ℤ'):
            if v.k=='c': return f'({int(v.v)})'
            return s.num_of(v)
        if lt=='Bool':
            if v.k=='c': return 'true' if v.v else 'false'
            if v.k=='opt': return f'{v.v}.isSome'
            if v.lt=='Bool': return v.v
        if lt=='Format':
            if v.k=='c': return FORMAT[v.v]
            if v.lt=='Format': return v.v
        if lt=='Address':
            if v.k=='c': return ['.channel','.group'][v.v]
        if lt=='Flt':
            if v.k=='c': 
                f='single' if v.ty=='float' else 'double'
                return f'(Fp.ofRat Fp.{f} ({v.v.numerator} / {v.v.denominator}))' if isinstance(v.v,Fraction) else f'(Fp.ofRat Fp.{f} {v.v})'
            if v.lt=='Flt': return v.v
        if lt=='Fmt' and v.k=='c': return v.v
        if lt=='List Byte':
            if v.k=='c' and isinstance(v.v,str): return blist(v.v.encode('utf-8') if v.ty!='raw' else v.v)
            if v.k=='c' and isinstance(v.v,bytes): return blist(v.v)
            if v.k=='list': return '['+', '.join(s.co(x,'Byte') for x in v.v)+']'
            if v.k=='c' and v.v is None: return '[]'
        if lt=='List Packet' and v.k=='list': return '['+', '.join(s.co(x,'Packet') for x in v.v)+']'
        if lt=='List ProfileId' and v.k=='c' and v.v is None: return '[]'
        if lt=='List ProfileId' and v.k=='list': return '['+', '.join(s.co(x,'ProfileId') for x in v.v)+']'
        if lt=='List (List Byte × List Byte)' and v.k=='list':
            return '['+', '.join('('+s.co(x.v[0],'List Byte')+', '+s.co(x.v[1],'List Byte')+')' for x in v.v)+']'
        if lt=='DataView':
            if v.k=='c' and v.v is None: return '{ null := true, bytes := [] }'
            return '{ null := false, bytes := '+s.co(v,'List Byte')+' }'
        if lt=='ProfileId' and v.k=='list': return '⟨'+', '.join(s.co(x,'Byte') for x in v.v)+'⟩'
        if lt=='Details' and v.k=='list':
            return '⟨'+', '.join(s.co(x,'Byte') for x in (v.v+[ci(0)]*5)[:5])+'⟩'
        if v.k=='l' and v.lt==lt: return v.v
        if v.k=='l' and lt.startswith('List') and v.lt==lt: return v.v
        if v.k=='opt' and v.lt==lt: return s.deref(v).v
        raise Un(f'coerce {v} to {lt}')
    def num_of(s,v):
        """a Lean Int term"""
        if v.k=='c':
            if isinstance(v.v,str): return str(ord(v.v))
            return f'{int(v.v)}' if int(v.v)>=0 else f'({int(v.v)})'
        if v.lt in W:
            return f'{v.v}.toInt' if v.ty in('int','int32_t','signed') else f'({v.v}.toNat : Int)'
        if v.lt=='Nat': return f'({v.v} : Int)'
        if v.lt=='Int': return v.v
        if v.lt=='Format': return f'({v.v}.code.toNat : Int)'
        if v.lt=='Bool': return f'(if {v.v} then 1 else 0)'
        raise Un(f'num_of {v}')
    def isint(s,v):
        return (v.k=='c' and isinstance(v.v,(int,bool)) and not isinstance(v.v,Fraction)) or (v.k=='l' and v.ty in INT and (v.lt in W or v.lt in('Nat','Int','Format','Bool')))
    def as_bool(s,v):
        if v.k=='c': return bool(v.v)
        return None
    def boolterm(s,v):
        if v.k=='c': return 'true' if v.v else 'false'
        if v.k=='opt': return f'{v.v}.isSome'
        if v.lt=='Bool': return v.v
        if v.lt in W: return f'({v.v} != 0)'
        raise Un(f'bool of {v}')
    def conv(s,ty,v):
        """conversion of an integer to the C++ type ty"""
        w,sg=INT[ty]
        if v.k=='c':
            if isinstance(v.v,str): v=ci(ord(v.v))
            if isinstance(v.v,Fraction): n=int(v.v)
            else: n=int(v.v)
            if ty=='bool': return V(ty,'c',bool(n))
            n%=2**w
            if sg and n>=2**(w-1): n-=2**w
            return V(ty,'c',n)
        if ty=='bool': return V('bool','l',s.boolterm(v),'Bool')
        if v.lt in W and W[v.lt]<=w or v.lt in('Format',): return V(ty,'l',v.v,v.lt)
        if v.lt in W:
            lt={8:'Byte',16:'U16',32:'Word'}[w];return V(ty,'l',f'({v.v}.setWidth {w})',lt)
        if v.lt=='Nat' and w>=32: return V(ty,'l',v.v,'Nat')
        raise Un(f'conv {ty} {v}')
    # expressions
    def ev(s,e,want=None):
        k=e[0]
        if k=='num': return s.num(e[1])
        if k=='bool': return V('bool','c',e[1])
        if k=='null': return V('nullptr_t','c',None)
        if k=='str':
            t=e[1]
            if t.startswith('R"('): return V('string','c',t[3:-2])
            t=t[t.index('"')+1:-1]
            return V('string','c',bytes(t,'utf-8').decode('unicode_escape').encode('latin-1').decode('utf-8','surrogateescape'))
        if k=='chr': return V('char','c',ord(bytes(e[1][1:-1],'utf-8').decode('unicode_escape')))
        if k=='list': return V('init','list',[s.ev(x) for x in e[1]])
        if k=='field': return V('field','f',(e[1],s.ev(e[2])))
        if k=='id':
            v=s.get(e[1])
            if v is not None: return v
            n=s.ty(e[1])
            m=re.match(r'(?:numeric_limits<(.*)>)::(min|max)',n)
            if n in CONST: return CONST[n]
            c=[q for q in CONST if q.endswith('::'+n)]
            if len(c)==1: return CONST[c[0]]
            if len(set((CONST[q].v) for q in c))==1: return CONST[c[0]]
            raise Un('id '+n)
        if k=='brace': return s.construct(s.ty(e[1]),[s.ev(x) for x in e[2]])
        if k=='call': return s.call(e)
        if k=='mem':
            o=s.ev(e[1]);return s.member(o,e[2])
        if k=='idx':
            o=s.ev(e[1]);i=s.ev(e[2])
            if o.k=='list' and i.k=='c': return o.v[i.v]
            if o.ty=='pair': raise Un('pair idx')
            if o.ty=='words' and i.k=='c': return V('uint32_t','l',f'({o.v}.w{i.v})','Word')
            if o.k=='c' and isinstance(o.v,str) and i.k=='c': return ci(ord(o.v[i.v]),'char')
            if o.k=='l' and o.lt=='List Byte':
                x=s.cx.let('←',f'index {o.v} {s.co(i,"Nat")}','Byte');return V('uint8_t','l',x,'Byte')
            if o.k=='l' and o.lt=='List Packet':
                return V(getattr(o,'el','universal_packet'),'l',f'({o.v}.getD {s.co(i,"Nat")} default)','Packet')
            if o.k=='l' and o.lt=='List ProfileId':
                return V('profile_id','l',f'({o.v}.getD {s.co(i,"Nat")} default)','ProfileId')
            raise Un('idx')
        if k=='un':
            o=e[1]
            if o in('++','--'):
                v=s.ev(e[2]);
                if e[2][0]!='id' or v.k!='c': raise Un('++')
                nv=s.conv(v.ty,ci(v.v+(1 if o=='++' else -1)));s.set(e[2][1],nv);return nv
            v=s.ev(e[2])
            if o=='-' and v.k=='c': return V(v.ty if v.ty in('float','double','unsigned int') else 'int','c',-v.v if v.ty!='unsigned int' else (-v.v)%2**32)
            if o=='+' : return v
            if o=='!':
                if v.k=='c': return V('bool','c',not v.v)
                return V('bool','l',f'(!{s.boolterm(v)})','Bool')
            if o=='*' and v.k=='opt': return s.deref(v)
            if o=='*' and v.k=='l' and v.lt=='List Byte': return V('uint8_t','l',s.cx.let('←',f'index {v.v} 0','Byte'),'Byte')
            if o=='*': return v
            if o=='&': return v
            if o=='~' and v.k=='c': return V(v.ty,'c',(~v.v)%2**32 if 'uns' in v.ty else ~v.v)
            raise Un('unary '+o)
        if k=='post':
            v=s.ev(e[2])
            if e[2][0]!='id' or v.k!='c': raise Un('post')
            s.set(e[2][1],s.conv(v.ty,ci(v.v+(1 if e[1]=='++' else -1))));return v
        if k=='bin': return s.binop(e[1],s.ev(e[2]),s.ev(e[3]))
        if k=='?':
            c=s.ev(e[1])
            if c.k!='c': raise Un('?')
            return s.ev(e[2] if c.v else e[3])
        if k=='sizeof':
            if e[1][0]=='id' and s.get(e[1][1]) is None: return V('size_t','c',0)
            v=s.ev(e[1])
            if v.k=='c' and isinstance(v.v,str): return V('size_t','c',len(v.v)+1)
            if v.k=='list': return V('size_t','c',len(v.v))
            raise Un('sizeof')
        if k=='assign': return s.assign(e)
        if k=='lambda': return V('lambda','fn',e)
        raise Un('expr '+k)
    def deref(s,v):
        x=s.cx.let('←',f'valueOf {v.v}',v.lt);return V(v.ty,'l',x,v.lt)
    def member(s,o,n):
        if o.k=='opt': o=s.deref(o)
        f=lookup(FIELD,o.ty,n)
        if f: return f(s,o)
        raise Un(f'field {o.ty}.{n}')
    def assign(s,e):
        _,op,l,r=e;rv=s.ev(r)
        if l[0]=='id':
            old=s.get(l[1])
            if old is None: raise Un('assign unknown')
            if op=='=':
                if old.ty in INT and s.isint(rv): nv=s.conv(old.ty,rv)
                elif old.ty==rv.ty: nv=rv
                elif ('assign',old.ty) in METH: nv=METH[('assign',old.ty)](s,old,rv)
                else: nv=s.construct(old.ty,[rv])
            else:
                nv=s.binop(op,old,rv)
                if old.ty in INT and s.isint(nv): nv=s.conv(old.ty,nv)
            s.set(l[1],nv);return nv
        # object.field = value
        path=l
        if path[0]=='idx' and path[1][0]=='mem' and path[1][1][0]=='id':
            o=s.ev(path[1][1]);i=s.ev(path[2]);f=lookup(SETTER,o.ty,path[1][2]+'[]')
            if f and op=='=': s.set(path[1][1][1],f(s,o,i,rv));return rv
            if f: 
                cur=s.ev(l);s.set(path[1][1][1],f(s,o,i,s.binop(op[:-1],cur,rv)));return rv
        if path[0]=='mem' and path[1][0]=='id':
            o=s.ev(path[1]);f=lookup(SETTER,o.ty,path[2])
            if f and op=='=': s.set(path[1][1],f(s,o,rv));return rv
        raise Un('assign')
    def binop(s,o,a,b):
        f=None
        if o=='+=' and a.ty=='ptr': o='+'
        for ta in base_chain(a.ty):
            for tb in list(base_chain(b.ty))+['*']:
                f=f or BIN.get((ta,o,tb))
        if f: return f(s,a,b)
        if o in('==','!='):
            t=s.eqterm(a,b,o=='!=')
            if t in('true','false'): return V('bool','c',t=='true')
            return V('bool','l',t,'Bool')
        if o in('&&','||'):
            if a.k=='c': 
                if (o=='&&')!=bool(a.v): return V('bool','c',bool(a.v))
                return V('bool','c',bool(b.v)) if b.k=='c' else V('bool','l',s.boolterm(b),'Bool')
            return V('bool','l',f'({s.boolterm(a)} {o} {s.boolterm(b)})','Bool')
        if o[-1:]=='=' and len(o)>1 and o not in('<=','>='): o=o[:-1]
        if a.k=='c' and b.k=='c' and not isinstance(a.v,(str,bytes)) and not isinstance(b.v,(str,bytes)):
            x,y=a.v,b.v
            if isinstance(x,bool): x=int(x)
            if isinstance(y,bool): y=int(y)
            if o in('<','>','<=','>='): return V('bool','c',{'<':x<y,'>':x>y,'<=':x<=y,'>=':x>=y}[o])
            fl=isinstance(x,Fraction) or isinstance(y,Fraction)
            r={'+':lambda:x+y,'-':lambda:x-y,'*':lambda:x*y,'/':lambda:(x/y if fl else (abs(x)//abs(y))*(1 if (x<0)==(y<0) else -1)),'%':lambda:x%y,'&':lambda:x&y,'|':lambda:x|y,'^':lambda:x^y,'<<':lambda:x<<y,'>>':lambda:x>>y}[o]()
            if fl:
                if a.ty in INT or b.ty in INT or a.ty==b.ty: pass
                return V('double' if 'double' in(a.ty,b.ty) else 'float','c',fpround(Fraction(r),'double' if 'double' in(a.ty,b.ty) else 'float'))
            u=any(t.ty in('unsigned int','uint32_t','size_t','uint28_t','muid_t','manufacturer_t') for t in((a,) if o in('<<','>>') else (a,b)))
            big=any(t.ty in('size_t','uint64_t') for t in (a,b))
            ty='size_t' if big else('unsigned int' if u else 'int')
            if u and not big: r%=2**32
            if big: r%=2**64
            return V(ty,'c',r)
        if s.isint(a) and s.isint(b):
            if o in('|','&'):
                lt=a.lt if a.k=='l' and a.lt in W else b.lt
                if a.k=='l' and b.k=='l' and a.lt in W and b.lt in W and W[b.lt]>W[a.lt]: lt=b.lt
                if lt in W: return V('unsigned int','l','('+s.co(a,lt)+{'|':' ||| ','&':' &&& '}[o]+s.co(b,lt)+')',lt)
            if o in('+','-','*'):
                return V('int','l',f'({s.num_of(a)} {o} {s.num_of(b)})','Int')
            if o in('<','>','<=','>='):
                return V('bool','l',f'decide ({s.num_of(a)} {dict(zip(("<",">","<=",">="),("<",">","≤","≥")))[o]} {s.num_of(b)})','Bool')
            if o=='>>' and b.k=='c' and a.lt in W: return V(a.ty,'l',f'({a.v} >>> {b.v})',a.lt)
            if o=='<<' and b.k=='c' and a.lt in W: return V('unsigned int','l',f'(({a.v}.setWidth 32) <<< {b.v})','Word')
        if a.ty in('float','double') or b.ty in('float','double'):
            fm='double' if 'double' in(a.ty,b.ty) else 'single'
            fn={'+':'Fp.Flt.add','-':'Fp.Flt.sub','*':'Fp.Flt.mul','/':'Fp.Flt.div'}.get(o)
            if fn in SIG: return V('double' if fm=='double' else 'float','l',f'({fn} Fp.{fm} {s.co(a,"Flt")} {s.co(b,"Flt")})','Flt')
        raise Un(f'binop {a} {o} {b}')
    def eqterm(s,a,b,neg):
        """a Bool term for a == b or a != b"""
        for x,y in((a,b),(b,a)):
            if x.ty=='ptrend' and getattr(y,'base',None)==x.v: return f'decide ({x.v}.length = {s.co(y.off,"Nat")})'
            if x.ty=='ptrend' and y.ty=='ptr' and y.v==x.v: return f'{x.v}.isEmpty'
        for x,y in((a,b),(b,a)):
            if x.k=='l' and x.lt=='Nat' and x.v.endswith('.length') and y.k=='c': s.lens[x.v[:-7]]=y.v
        for ta in base_chain(a.ty):
            f=METH.get(('!=' if neg else '==',ta))
            if f and a.k in('l',): return f(s,a,b)
        for tb in base_chain(b.ty):
            f=METH.get(('!=' if neg else '==',tb))
            if f and b.k in('l',): return f(s,b,a)
        n='!' if neg else ''
        if a.k=='c' and b.k=='c':
            if isinstance(a.v,Fraction)!=isinstance(b.v,Fraction): raise Un('eq float')
            return 'true' if (a.v==b.v)!=neg else 'false'
        if s.isint(a) and s.isint(b):
            # usual arithmetic conversions: int to unsigned
            u=('uint32_t','unsigned int','unsigned');i=('int32_t','int')
            if a.k=='l' and b.k=='l' and a.lt==b.lt=='Word' and (a.ty in u and b.ty in i or a.ty in i and b.ty in u):
                return f'{n}decide ({a.v} = {b.v})'
            return f'{n}decide ({s.num_of(a)} = {s.num_of(b)})'
        for x,y in((a,b),(b,a)):
            if x.k=='l' and x.lt in('Flt',):
                return f'{n}decide ({x.v} = {s.co(y,"Flt")})'
            if x.k=='l' and x.lt in('List Byte',): return f'{n}decide ({x.v} = {s.co(y,"List Byte")})'
            if x.k=='l' and x.lt=='Bool': return f'{n}decide ({x.v} = {s.boolterm(y)})'
            if x.k=='opt' and y.k=='c' and y.ty=='bool': return f'{n}decide ({x.v}.isSome = {s.boolterm(y)})'
        if a.k=='l' and b.k=='l' and a.lt==b.lt and a.ty==b.ty and a.lt in W: return f'{n}decide ({a.v} = {b.v})'
        if a.k=='list' and b.k=='list':
            if len(a.v)!=len(b.v): return 'true' if neg else 'false'
            if all(x.k=='c' for x in a.v+b.v): return 'true' if ([x.v for x in a.v]==[x.v for x in b.v])!=neg else 'false'
        raise Un(f'eq {a} {b}')
    def construct(s,ty,args):
        ty=s.ty(ty)
        if ty in INT:
            if not args: return V(ty,'c',0)
            if len(args)==1 and (args[0].k=='list' or args[0].ty in('ptr','sxdata') or (args[0].k=='c' and (args[0].v is None or isinstance(args[0].v,str) and args[0].ty=='string'))): return args[0]
            if len(args)==1:
                if s.isint(args[0]) or args[0].k=='opt': return s.conv(ty,args[0])
                if args[0].k=='c': return s.conv(ty,args[0])
            raise Un('int ctor')
        if ty in('float','double') and len(args)==1 and args[0].k=='c': return V(ty,'c',Fraction(args[0].v))
        if ty in('string','string_view'):
            if not args: return V('string','c','')
            if len(args)==1 and args[0].k=='c': return V('string','c',args[0].v)
            if len(args)==1 and args[0].k=='l' and args[0].lt=='List Byte': return V('string','l',args[0].v,'List Byte')
            if len(args)==2 and all(a.k=='c' for a in args) and isinstance(args[0].v,int): return V('string','c',chr(args[1].v)*args[0].v)
            if len(args)==2 and isinstance(args[0].v,str): return V('string','c',args[0].v[:args[1].v])
            raise Un('string')
        if ty.startswith('pair<'):
            m=re.match(r'pair<(.*),(.*)>$',ty);return V('pair','list',[s.elem(s.ty(t.strip()),a) for t,a in zip(m.groups(),args)])
        if (re.match(r'(vector|array)<',ty) or ty=='string') and len(args)==2 and args[0].ty in('ptr','sxdata') and args[1].ty=='ptr' and hasattr(args[1],'base'):
            return V('vector','l',f'(List.take {s.co(args[1].off,"Nat")} {args[0].v})','List Byte')
        if re.match(r'(vector|array)<',ty) or ty in('sysex7::data_type','sysex::data_type','sysex8::data_type'):
            if len(args)==1 and args[0].k=='list' and args[0].ty=='init' and not ('profile_id' in ty and args[0].v and args[0].v[0].k!='list'): return args[0]
            if len(args)==2 and all(a.k=='c' for a in args) and False: pass
            m=re.match(r'(?:vector|array)<([\w: ]+)',ty);el=s.ty(m.group(1)) if m else 'uint8_t'
            return V('vector','list',[s.elem(el,a) for a in args])
        if len(args)==1 and args[0].ty==ty and args[0].k in('l',): return args[0]
        if ty in CTOR: return CTOR[ty](s,args)
        raise Un('ctor '+ty)
    def elem(s,el,a):
        if el in INT and s.isint(a): return s.conv(el,a)
        if a.k=='list' and a.ty=='init': return s.construct(el,a.v)
        return a
    def call(s,e):
        f=e[1]
        if f[0]=='mem':
            obj,n=f[1],f[2]
            o=s.ev(obj)
            args=[s.ev(a) for a in e[2]]
            m=lookup(METH,o.ty,n)
            if o.k=='opt' and n=='has_value': return V('bool','l',f'{o.v}.isSome','Bool')
            if o.k=='opt' and n=='value': return s.deref(o)
            if o.k=='opt': o=s.deref(o)
            if o.k=='list':
                if n=='size': return V('size_t','c',len(o.v))
                if n=='data' or n in('begin',): return o
                if n=='reserve': return o
                if n=='push_back' and obj[0]=='id': s.set(obj[1],V(o.ty,'list',o.v+[args[0]]));return o
                if n=='empty': return V('bool','c',not o.v)
            if o.k=='c' and isinstance(o.v,str):
                if n in('size','length'): return V('size_t','c',len(o.v.encode('utf-8')))
                if n in('c_str','data'): return o
                if n=='empty': return V('bool','c',not o.v)
            if o.k=='l' and o.lt=='List Byte':
                if n in('size','length'): return V('size_t','l',f'{o.v}.length','Nat')
                if n=='empty': return V('bool','l',f'{o.v}.isEmpty','Bool')
            if o.k=='l' and o.lt.startswith('List') and n=='size': return V('size_t','l',f'{o.v}.length','Nat')
            if not m: raise Un(f'method {o.ty}.{n}')
            r=m(s,o,*args)
            if isinstance(r,tuple):
                nv,res=r
                if obj[0]=='id': s.set(obj[1],nv)
                elif obj[0]=='mem' and obj[1][0]=='id':
                    oo=s.ev(obj[1]);ff=lookup(SETTER,oo.ty,obj[2])
                    if not ff: raise Un('mutating nested')
                    s.set(obj[1][1],ff(s,oo,nv))
                else: raise Un('mutating temporary')
                return res if res is not None else nv
            return r
        if f[0]=='id':
            lv=s.get(f[1])
            if lv is not None and lv.k=='fn': return s.calllambda(lv.v,[s.ev(a) for a in e[2]])
            n=s.ty(f[1])
            m=re.match(r'numeric_limits<(.*)>::(min|max|lowest)$',n)
            if m:
                w,sg=INT[norm(m.group(1))]
                return V(norm(m.group(1)),'c',(2**(w-sg)-1) if m.group(2)=='max' else (-2**(w-1) if sg else 0))
            m=re.match(r'(static_cast|reinterpret_cast|const_cast)<(.*)>$',n)
            if m:
                a=s.ev(e[2][0]);t=norm(m.group(2)).replace('const ','').strip()
                if m.group(1)=='static_cast': return s.construct(t,[a])
                return a
            if n=='to_midi1_byte_stream':
                p=s.ev(e[2][0]);r=s.app('toMidi1ByteStream',p,ret='ptr');s.set(e[2][1][1],V('ptr','l',r.v,'List Byte'))
                return V('size_t','l',f'{r.v}.length','Nat')
            if n=='bind':
                return V('bindfn','fn2',e[2][0][2][1].split('::')[-1],mock=s.ev(e[2][1]))
            if n in('SYSEX_ALLOCATOR_CAPTURE_COUNT','SYSEX_ALLOCATOR_VERIFY_DIFF'): return None
            if re.match(r'(vector|array)<',n) or n.endswith('::data_type'):
                return s.construct(n,[s.ev(a) for a in e[2]])
            if n in ('move','forward','as_const'): return s.ev(e[2][0])
            if n=='strlen': 
                a=s.ev(e[2][0]);return V('size_t','c',len(a.v.encode('utf-8')))
            if n in('begin','end') : raise Un('iterator')
            if n in INT or n in CTOR or n in('string','string_view','float','double'): return s.construct(n,[s.ev(a) for a in e[2]])
            m=re.match(r'(?:(.*)::)?(\w+)<(.*)>$',n)
            if m and (m.group(2)+'<>') in FREE: return FREE[m.group(2)+'<>'](s,s.ty(m.group(3)),*[s.ev(a) for a in e[2]])
            if n in FREE: return FREE[n](s,*[s.ev(a) for a in e[2]])
            if '::' in n:
                c,meth=n.rsplit('::',1)
                st=lookup(METH,s.ty(c),'static '+meth)
                if st: return st(s,*[s.ev(a) for a in e[2]])
            raise Un('function '+n)
        if f[0]=='lambda': return s.calllambda(f,[s.ev(a) for a in e[2]])
        raise Un('call')
    def calllambda(s,l,args):
        _,pars,(t,a,b)=l
        names=[];cur=[]
        for x in pars+[',']:
            if x==',': 
                if cur: names.append(cur[-1] if len(cur)>1 else '_')
                cur=[]
            else: cur.append(x)
        s.env.append(dict(zip(names,args)))
        try:
            s.run(P(t,a,b).stmts());return None
        except Ret as r: return r.v
        finally: s.env.pop()
    # statements
    def idents(s,e,acc=None):
        acc=set() if acc is None else acc
        if isinstance(e,(tuple,list)):
            if len(e)>1 and e[0]=='id' and isinstance(e[1],str): acc.add(e[1])
            for x in e:
                if isinstance(x,(tuple,list)): s.idents(x,acc)
        return acc
    def bad(s,why,line,what,ids=()):
        s.unk.setdefault(str(why)[:90],[]).append(line)
        for n in ids:
            if s.get_raw(n): s.set(n,None)
    def get_raw(s,n): return any(n in e for e in s.env)
    def decl(s,st):
        _,ty,ds,line=st
        for n,arr,init in ds:
            try:
                t=s.ty(ty)
                if init is None and arr:
                    c=s.ev(arr)
                    v=V('vector','list',[s.construct(t,[]) for _ in range(c.v)])
                elif init is None: v=s.construct(t,[])
                elif t=='auto':
                    v=s.ev(init[1] if init[0]=='eq' else init[1][0])
                    if v.k=='list' and v.ty=='init': v=V('vector','list',v.v)
                elif arr:
                    e=init[1] if init[0]=='eq' else ('list',init[1])
                    v=s.ev(e)
                    if v.k=='c' and isinstance(v.v,str): v=V('string','c',v.v)
                    else: v=V('vector','list',[s.elem(t,x) for x in v.v])
                elif init[0]=='eq' and init[1][0]=='null': v=V('nullptr_t','c',None)
                else:
                    if init[0]=='eq':
                        x=s.ev(init[1]);a=x.v if x.k=='list' and x.ty=='init' else [x]
                    else: a=[s.ev(x) for x in init[1]]
                    if len(a)==1 and a[0].k=='fn': v=a[0]
                    elif len(a)==1 and a[0].k!='list' and a[0].ty==t: v=a[0]
                    elif t.startswith('optional'): v=a[0]
                    else: v=s.construct(t,a)
                s.env[-1][n]=v
            except (Un,KeyError,IndexError,TypeError,AttributeError,ValueError) as x:
                s.env[-1][n]=None;s.bad(f'{type(x).__name__} {x}',line,n)
    def run(s,ss):
        for st in ss: s.stmt(st)
    def stmt(s,st):
        k=st[0]
        if k=='block':
            s.env.append({});s.alias.append({})
            try: s.run(st[1])
            finally: s.env.pop();s.alias.pop()
        elif k=='alias': s.alias[-1][st[1]]=st[2]
        elif k=='decl': s.decl(st)
        elif k=='bad': s.bad('parse '+st[3],st[2],st[1])
        elif k=='expr':
            try: s.ev(st[1])
            except (Un,KeyError,IndexError,TypeError,AttributeError,ValueError) as x: s.bad(f'{type(x).__name__} {x}',st[2],'',s.idents(st[1]))
        elif k=='return': raise Ret(s.ev(st[1]) if st[1] else None)
        elif k=='expect':
            s.stats[0]+=1
            c=s.budget.get(st[3],0)
            if c>=s.limit and not st[1].endswith('CALL'): s.stats[1]+=1;return
            try: s.expect(st);s.stats[1]+=1;s.budget[st[3]]=c+1
            except (Un,KeyError,IndexError,TypeError,AttributeError,ValueError) as x: s.bad(f'{type(x).__name__} {x}',st[3],'')
        elif k=='if':
            s.env.append({});s.alias.append({})
            try:
                if st[1][0]=='decl':
                    s.decl(st[1]);n=st[1][2][0][0];v=s.get(n)
                else: v=s.ev(st[1][1])
                if v.k=='c': s.run(st[2] if v.v else st[3])
                elif v.k!='opt' and 'asMidi' not in v.v and '.isSome' not in v.v: raise Un('condition')
                else:
                    # the tests only use this with optionals that have a value
                    s.emit(s.boolterm(v),st[-1]);s.run(st[2])
            except (Un,KeyError,IndexError,TypeError,AttributeError,ValueError) as x: s.bad(f'if {type(x).__name__} {x}',st[-1],'',s.idents(st))
            finally: s.env.pop();s.alias.pop()
        elif k=='for': s.loop(st)
        elif k=='switch':
            try:
                v=s.ev(st[1])
                if v.k!='c': raise Un('switch on a term')
                for labs,b in st[2]:
                    if any(l is None or s.ev(l).v==v.v for l in labs): s.run([('block',b,st[3])]);break
            except (Un,KeyError,IndexError,TypeError,AttributeError,ValueError) as x: s.bad(f'switch {type(x).__name__} {x}',st[-1],'')
        else: s.bad('stmt '+k,0,'')
    limit=6
    def loop(s,st):
        _,hd,body,line=st
        s.env.append({});s.alias.append({})
        try:
            if hd[0]=='forin':
                l=s.ev(hd[2])
                if l.k=='l' and l.lt=='List ProfileId' and l.v in s.lens:
                    if s.lens[l.v]>8: raise Un('long range')
                    l=V('vector','list',[V('profile_id','l',f'({l.v}.getD {i} default)','ProfileId') for i in range(s.lens[l.v])])
                if l.k!='list': raise Un('range '+str(l)[:60])
                for x in l.v:
                    s.env.append({hd[1]:x})
                    try: s.run(body)
                    finally: s.env.pop()
            else:
                s.stmt(hd[1]);n=0;vals=[]
                # pass 1: count the rounds, pass 2: execute a sample
                save=[dict(e) for e in s.env]
                while True:
                    c=s.ev(hd[2])
                    if c.k!='c': raise Un('loop condition')
                    if not c.v: break
                    n+=1
                    if n>70000: break
                    s.ev(hd[3])
                for e,o in zip(s.env,save): e.clear();e.update(o)
                pick=set(range(n)) if n<=s.rounds else set(int(i*(n-1)/(s.rounds-1)) for i in range(s.rounds))
                for i in range(n):
                    if i in pick: s.run([('block',body,line)])
                    s.ev(hd[3])
        except (Un,KeyError,IndexError,TypeError,AttributeError,ValueError) as x:
            s.bad(f'loop {type(x).__name__} {x}',line,'',s.idents(st))
        finally: s.env.pop();s.alias.pop()
    rounds=12
    def finish(s):
        for m in s.mocks:
            if not m.got: continue
            s.emit('decide ('+' ++ '.join(m.got)+' = ['+', '.join(m.want)+'])',m.line)
    def expect(s,st):
        _,n,args,line=st
        n=n.split('_',1)[1]
        if n=='CALL':
            m=s.ev(args[0]);c=args[1];a=s.ev(c[2][0])
            m.want.append({'on_packet':'Event.packet ','on_sysex':'Event.sysex '}[c[1][1]]+s.co(a,{'on_packet':'Packet','on_sysex':'Sysex'}[c[1][1]]));m.line=line;return
        if n in('TRUE','FALSE'):
            v=s.ev(args[0])
            if v.k=='c':
                if bool(v.v)!=(n=='TRUE'): raise Un('CONSTANT FALSE')
                return
            t=s.boolterm(v);s.emit(t if n=='TRUE' else f'(!{t})',line);return
        a,b=s.ev(args[0]),s.ev(args[1])
        if n in('EQ','STREQ'): s.emit(s.eqterm(a,b,False),line)
        elif n=='NE': s.emit(s.eqterm(a,b,True),line)
        elif n in('GT','LT','GE','LE'):
            v=s.binop({'GT':'>','LT':'<','GE':'>=','LE':'<='}[n],a,b);s.emit(s.boolterm(v),line)
        elif n in('FLOAT_EQ','DOUBLE_EQ'):
            f='single' if n[0]=='F' else 'double'
            s.emit(f'almost Fp.{f} {s.co(a,"Flt")} {s.co(b,"Flt")}',line)
        elif n=='NEAR':
            eps=s.ev(args[2]);s.emit(f'near ({eps.v.numerator} / {eps.v.denominator}) {s.co(a,"Flt")} {s.co(b,"Flt")}',line)
        else: raise Un('EXPECT_'+n)
    def emit(s,t,line):
        if t=='true': return
        if t=='false': raise Un(f'CONSTANT FALSE')
        s.out.append((line,t,len(s.cx.binds)))
