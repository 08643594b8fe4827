"""A small parser for the subset of C++ that the unit tests of /repo use."""
import re
TOK=re.compile(r'''\s+|//[^\n]*|/\*.*?\*/|(?P<t>
 R"\((?:.|\n)*?\)"|
 (?:u8|L)?"(?:\\.|[^"\\])*"|'(?:\\.|[^'\\])'|
 0[xX][0-9a-fA-F']+[uUlL]*|0[bB][01']+[uUlL]*|
 (?:\d[\d']*\.\d*|\.\d+)(?:[eE][-+]?\d+)?[fFlL]?|\d[\d']*(?:[eE][-+]?\d+)[fFlL]?|\d[\d']*[uUlL]*|
 [A-Za-z_]\w*|::|->|\+\+|--|<<=|>>=|<<|<=|>=|==|!=|&&|\|\||\+=|-=|\*=|/=|\|=|&=|\^=|\.\.\.|[-+*/%&|^~!<>=?:;,.(){}\[\]\#])''',re.X|re.S)
class Tok(str):
    line=0
def tokenize(src):
    out=[];i=0;line=1
    src=re.sub(r'^[ \t]*#[^\n]*','',src,flags=re.M)
    while i<len(src):
        m=TOK.match(src,i)
        if not m: raise SyntaxError(f'line {line}: {src[i:i+40]!r}')
        if m.group('t'):
            t=Tok(m.group('t'));t.line=line;out.append(t)
        line+=src.count('\n',i,m.end());i=m.end()
    return out
class PE(Exception): pass
QUAL={'const','constexpr','static','inline','unsigned','signed','mutable','typename'}
def isid(t): return re.match(r'[A-Za-z_]\w*$',t) is not None
class P:
    def __init__(s,toks,i=0,end=None): s.t=toks;s.i=i;s.end=len(toks) if end is None else end
    def pk(s,k=0): return s.t[s.i+k] if s.i+k<s.end else Tok('')
    def nx(s): t=s.pk();s.i+=1;return t
    def ex(s,x):
        if s.pk()!=x: raise PE(f'line {getattr(s.pk(),"line",0)}: expected {x} got {s.pk()!r}')
        return s.nx()
    def match(s,i):
        o=s.t[i];c={'(':')','{':'}','[':']'}[o];d=0
        while i<s.end:
            if s.t[i] in '([{' and len(s.t[i])==1: d+=1
            elif s.t[i] in ')]}' and len(s.t[i])==1:
                d-=1
                if d==0: return i
            i+=1
        raise PE('unbalanced')
    def tmpl(s):
        """template arguments after an identifier, or None"""
        if s.pk()!='<': return None
        j=s.i+1;d=1
        while j<s.end and d:
            t=s.t[j]
            if t=='<': d+=1
            elif t=='>': d-=1
            elif not (isid(t) or t in ('::',',','*','&','const') or t[0].isdigit()): return None
            j+=1
        if d: return None
        if j<s.end and not (s.t[j] in ('(','{','::',')',',') or isid(s.t[j])): return None
        a=' '.join(s.t[s.i+1:j-1]).replace(' :: ','::');s.i=j
        return a
    def qid(s):
        parts=[]
        if s.pk()=='::': s.nx()
        while True:
            if not isid(s.pk()): raise PE('identifier expected: '+s.pk())
            n=str(s.nx());a=s.tmpl()
            parts.append(n if a is None else n+'<'+a+'>')
            if s.pk()=='::' and isid(s.pk(1)): s.nx()
            else: break
        return '::'.join(parts)
    # expressions
    BIN=[['||'],['&&'],['|'],['^'],['&'],['==','!='],['<','>','<=','>='],['<<','>>'],['+','-'],['*','/','%']]
    def expr(s): return s.assign()
    def assign(s):
        l=s.cond()
        if s.pk() in ('=','+=','-=','|=','&=','*=','<<=','>>='):
            o=str(s.nx());r=s.assign();return ('assign',o,l,r)
        return l
    def cond(s):
        c=s.bin(0)
        if s.pk()=='?':
            s.nx();a=s.expr();s.ex(':');b=s.assign();return ('?',c,a,b)
        return c
    def bin(s,l):
        if l==len(s.BIN): return s.unary()
        a=s.bin(l+1)
        while True:
            o=str(s.pk())
            if o=='>' and s.pk(1)=='>' and l==7: o='>>'
            if o in s.BIN[l] and not (o=='>' and s.pk(1)=='>'):
                s.nx()
                if o=='>>': s.nx()
                b=s.bin(l+1);a=('bin',o,a,b)
            else: return a
    def unary(s):
        t=str(s.pk())
        if t in ('-','+','!','~','*','&','++','--'):
            s.nx();return ('un',t,s.unary())
        if t=='sizeof':
            s.nx();s.ex('(');e=s.expr();s.ex(')');return ('sizeof',e)
        return s.postfix()
    def args(s,close):
        a=[]
        while s.pk()!=close:
            a.append(s.initexpr())
            if s.pk()==',': s.nx()
            elif s.pk()!=close: raise PE(f'line {s.pk().line}: , expected: {s.pk()}')
        s.ex(close);return a
    def initexpr(s):
        if s.pk()=='{': s.nx();return ('list',s.args('}'))
        if s.pk()=='.' and isid(s.pk(1)) and s.pk(2)=='=':
            s.nx();n=str(s.nx());s.nx();return ('field',n,s.initexpr())
        return s.expr()
    def postfix(s):
        t=s.pk()
        if t=='(':
            s.nx();e=s.expr();s.ex(')')
        elif t=='[': 
            # lambda
            j=s.match(s.i)+1
            cap=[str(x) for x in s.t[s.i+1:j-1]]
            pars=[]
            if s.t[j]=='(':
                k=s.match(j);pars=s.t[j+1:k];j=k+1
            while s.t[j]!='{': j+=1
            k=s.match(j);e=('lambda',[str(x) for x in pars],(s.t,j+1,k));s.i=k+1
        elif t=='{': s.nx();e=('list',s.args('}'))
        elif t[0] in '"\'' or t.startswith('R"') or t.startswith('u8"'):
            st=str(s.nx())
            while s.pk() and s.pk()[0]=='"' and st[-1]=='"' : st=st[:-1]+str(s.nx())[1:]
            e=('str',st) if st[0]!="'" else ('chr',st)
        elif t[0].isdigit() or (t[0]=='.' and len(t)>1): e=('num',str(s.nx()))
        elif isid(t) or t=='::':
            if t in ('true','false'): s.nx();e=('bool',t=='true')
            elif t=='nullptr': s.nx();e=('null',)
            elif t in ('unsigned','signed'):
                s.nx()
                n=str(s.nx()) if isid(s.pk()) else 'int'
                e=('id',t+' '+n)
            else: e=('id',s.qid())
        else: raise PE(f'line {getattr(t,"line",0)}: unexpected {t!r}')
        while True:
            t=s.pk()
            if t=='(': s.nx();e=('call',e,s.args(')'))
            elif t=='{' and e[0]=='id': s.nx();e=('brace',e[1],s.args('}'))
            elif t=='[': s.nx();i=s.initexpr();s.ex(']');e=('idx',e,i)
            elif t in ('.','->'):
                s.nx();n=str(s.nx());e=('mem',e,n)
            elif t in ('++','--'): s.nx();e=('post',str(t),e)
            else: return e
    # statements
    def stmts(s):
        out=[]
        while s.i<s.end: 
            x=s.stmt()
            if x: out.append(x)
        return out
    def block(s):
        s_=s.match(s.i);b=P(s.t,s.i+1,s_).stmts();s.i=s_+1;return b
    def skip(s):
        """skip a statement that could not be parsed"""
        a=s.i
        while s.i<s.end and s.pk()!=';':
            if s.pk() in ('(','{','['): s.i=s.match(s.i)+1
            else: s.i+=1
        s.i+=1
        return ('bad',' '.join(s.t[a:s.i]),s.t[a].line)
    def stmt(s):
        t=s.pk();line=t.line;a=s.i
        if t==';': s.nx();return None
        if t=='{': return ('block',s.block(),line)
        try:
            if t=='using':
                toks=[]
                while s.pk()!=';': toks.append(str(s.nx()))
                s.nx()
                if '=' in toks: return ('alias',toks[1],''.join(toks[3:]),line)
                return None
            if t in('class','struct'):
                while s.pk() not in (';',):
                    if s.pk()=='{': s.i=s.match(s.i)+1
                    else: s.i+=1
                s.nx();return None
            if t=='for':
                s.nx();c=s.match(s.i);h=P(s.t,s.i+1,c);s.i=c+1
                toks=h.t[h.i:h.end]
                if ';' in toks:
                    init=h.stmt();cond=h.expr();h.ex(';');step=h.expr() if h.i<h.end else None
                    hd=('for3',init,cond,step)
                else:
                    k=max(i for i,x in enumerate(toks) if x==':')
                    nm=str(toks[k-1]);e=P(h.t,h.i+k+1,h.end).initexpr();hd=('forin',nm,e)
                body=s.block() if s.pk()=='{' else [s.stmt()]
                return ('for',hd,body,line)
            if t=='if':
                s.nx()
                if s.pk()=='constexpr': s.nx()
                c=s.match(s.i);h=P(s.t,s.i+1,c);s.i=c+1
                d=h.decl(True)
                if d is None: d=('expr',h.expr(),line)
                th=s.block() if s.pk()=='{' else [s.stmt()]
                el=[]
                if s.pk()=='else':
                    s.nx();el=s.block() if s.pk()=='{' else [s.stmt()]
                return ('if',d,th,el,line)
            if t=='switch':
                s.nx();c=s.match(s.i);h=P(s.t,s.i+1,c);s.i=c+1;e=h.expr()
                c=s.match(s.i);q=P(s.t,s.i+1,c);s.i=c+1
                cases=[]
                while q.i<q.end:
                    labs=[]
                    while q.pk() in('case','default'):
                        if q.nx()=='case': labs.append(q.cond())
                        else: labs.append(None)
                        q.ex(':')
                    body=[]
                    while q.i<q.end and q.pk() not in('case','default'):
                        if q.pk()=='break': q.nx();q.ex(';');continue
                        x=q.stmt()
                        if x: body.append(x)
                    cases.append((labs,body))
                return ('switch',e,cases,line)
            if t=='return':
                s.nx();e=None if s.pk()==';' else s.initexpr();s.ex(';');return ('return',e,line)
            if t.startswith('EXPECT_') or t.startswith('ASSERT_'):
                n=str(s.nx());s.ex('(');ar=s.args(')')
                while s.pk()!=';':
                    if s.pk() in ('(','{','['): s.i=s.match(s.i)+1
                    else: s.i+=1
                s.nx();return ('expect',n,ar,line)
            d=s.decl()
            if d: return d
            e=s.expr();s.ex(';');return ('expr',e,line)
        except PE as x:
            s.i=a
            b=s.skip();return b+(str(x),)
    def decl(s,incond=False):
        a=s.i;line=s.pk().line
        while s.pk() in ('const','constexpr','static','mutable'): s.nx()
        try:
            if s.pk() in('unsigned','signed'):
                ty=str(s.nx())
                if isid(s.pk()) and s.pk() in ('int','char','short','long'): ty+=' '+str(s.nx())
                else: ty+=' int'
            else: ty=s.qid()
        except PE: s.i=a;return None
        while s.pk() in ('const','&','*','&&'): s.nx()
        if not isid(s.pk()) or s.pk(1) not in ('{','=','(','[',';',','): s.i=a;return None
        ds=[]
        while True:
            n=str(s.nx());arr=False;init=None
            if s.pk()=='[':
                e_=s.match(s.i);q_=P(s.t,s.i+1,e_);arr=True
                if q_.i<q_.end:
                    try: arr=q_.expr()
                    except PE: arr=True
                s.i=e_+1
            if s.pk()=='{': s.nx();init=('brace',s.args('}'))
            elif s.pk()=='=': s.nx();init=('eq',s.initexpr())
            elif s.pk()=='(':
                s.nx();init=('paren',s.args(')'))
            ds.append((n,arr,init))
            if s.pk()==',': s.nx()
            else: break
        if not incond: s.ex(';')
        return ('decl',ty,ds,line)
def tests(src):
    import re as _re
    src=_re.sub(r'^\s*__pragma.*$','',src,flags=_re.M)
    src=src.replace('.as<identity_reply_view>()','.as_identity_reply()').replace('.as<midi::universal_sysex::identity_reply_view>()','.as_identity_reply()')
    """yields (name, line, statements)"""
    t=tokenize(src);i=0
    while i<len(t):
        if t[i] in('TEST','TEST_F','TEST_P') and t[i+1]=='(':
            p=P(t,i+1);j=p.match(i+1);nm=''.join(t[i+2:j])
            p.i=j+1;e=p.match(j+1)
            yield nm,t[i].line,P(t,j+2,e).stmts()
            i=e+1
        else: i+=1
if __name__=='__main__':
    import sys,glob
    for f in sorted(glob.glob('/repo/tests/*_tests.cpp')):
        n=b=0
        def walk(ss):
            global n,b
            for s in ss:
                n+=1
                if s[0]=='bad': b+=1;print(f.split('/')[-1],s[2],s[1][:100],s[3])
                elif s[0]=='block': walk(s[1])
                elif s[0]=='for': walk(s[2])
                elif s[0]=='switch':
                    for _,b in s[2]: walk(b)
                elif s[0]=='if': walk(s[2]);walk(s[3])
        for nm,l,ss in tests(open(f).read()): walk(ss)
        print(f,n,b)
