"""A parser for the table literals of Go tests."""
import re
TOK=re.compile(r'''\s+|//[^\n]*|/\*.*?\*/|(?P<str>"(?:\\.|[^"\\])*")|(?P<raw>`[^`]*`)|(?P<chr>'(?:\\.|[^'\\])+')|(?P<num>0[xX][0-9a-fA-F_]+|\d[\d_]*(?:\.\d+)?)|(?P<id>[A-Za-z_]\w*)|(?P<op><<|>>|:=|==|!=|<=|>=|&&|\|\||&\^|\.\.\.|[-+*/%&|^!<>=.,;:()\[\]{}])''',re.S)
def tokenize(s):
    out=[];i=0
    while i<len(s):
        m=TOK.match(s,i)
        if not m: raise SyntaxError(repr(s[i:i+40]))
        if m.lastgroup: out.append((m.lastgroup,m.group(),m.start()))
        i=m.end()
    return out
ESC={'n':10,'t':9,'r':13,'0':0,'\\':92,'"':34,"'":39,'a':7,'b':8,'f':12,'v':11}
def unq(t):
    """bytes of an interpreted string literal"""
    t=t[1:-1]; out=b'';i=0
    while i<len(t):
        c=t[i]
        if c!='\\': out+=c.encode();i+=1;continue
        n=t[i+1]
        if n=='x': out+=bytes([int(t[i+2:i+4],16)]);i+=4
        elif n=='u': out+=chr(int(t[i+2:i+6],16)).encode('utf-8');i+=6
        elif n=='U': out+=chr(int(t[i+2:i+10],16)).encode('utf-8');i+=10
        elif n in '01234567' and i+3<len(t)+1 and re.match(r'[0-7]{3}',t[i+1:i+4]): out+=bytes([int(t[i+1:i+4],8)]);i+=4
        else: out+=bytes([ESC[n]]);i+=2
    return out
def goint(v):
    v=v.replace('_','')
    return int(v,8) if len(v)>1 and v.isdigit() and v[0]=='0' else int(v,0)
PREC={'||':1,'&&':2,'==':3,'!=':3,'<':3,'<=':3,'>':3,'>=':3,'+':4,'-':4,'|':4,'^':4,'*':5,'/':5,'%':5,'<<':5,'>>':5,'&':5,'&^':5}
class P:
    def __init__(s,toks): s.t=toks;s.i=0
    def peek(s,k=0): return s.t[s.i+k][1] if s.i+k<len(s.t) else ''
    def kind(s): return s.t[s.i][0]
    def eat(s,x=None):
        v=s.t[s.i]
        if x is not None and v[1]!=x: raise SyntaxError('expected %s got %r at %d'%(x,v[1],v[2]))
        s.i+=1; return v
    def skip_braces(s):
        s.eat('{');d=1
        while d:
            v=s.eat()[1]
            d+= (v=='{')-(v=='}')
    def type(s):
        p=s.peek()
        if p=='[':
            s.eat('[')
            n=None
            if s.peek()!=']': n=s.expr() if s.peek()!='...' else s.eat()
            s.eat(']')
            return ('slice',s.type())
        if p=='*': s.eat(); return ('ptr',s.type())
        if p=='map':
            s.eat();s.eat('[');k=s.type();s.eat(']');return ('map',k,s.type())
        if p=='struct':
            s.eat(); st=s.i
            s.eat('{'); fields=[]
            while s.peek()!='}':
                names=[s.eat()[1]]
                while s.peek()==',': s.eat(); names.append(s.eat()[1])
                if s.peek() in ('}',) or s.peek()==';': pass
                # embedded field?
                if s.kind()=='id' or s.peek() in ('[','*','map','func','struct','interface','error'):
                    # embedded detection is not needed here
                    ty=s.type()
                    for n in names: fields.append((n,ty))
                if s.peek()==';': s.eat()
            s.eat('}')
            return ('struct',fields)
        if p=='func':
            s.eat(); s.params()
            if s.peek()=='(' : s.params()
            elif s.peek() in ('[','*') or (s.kind()=='id' and s.peek()!='{'): s.type()
            return ('func',)
        if p=='interface':
            s.eat(); s.skip_braces(); return ('interface',)
        name=s.eat()[1]
        while s.peek()=='.': s.eat(); name+='.'+s.eat()[1]
        return ('name',name)
    def params(s):
        s.eat('(');d=1
        while d:
            v=s.eat()[1]
            d+=(v=='(')-(v==')')
    def expr(s,p=0):
        a=s.unary()
        while s.peek() in PREC and PREC[s.peek()]>p:
            op=s.eat()[1]; b=s.expr(PREC[op]); a=('bin',op,a,b)
        return a
    def unary(s):
        if s.peek() in ('-','&','!','^','*','+'):
            op=s.eat()[1]; return ('un',op,s.unary())
        return s.primary()
    def primary(s):
        k,v,pos=s.t[s.i]
        if k=='num': s.eat(); a=('num',float(v) if '.' in v else goint(v))
        elif k=='str': s.eat(); a=('str',unq(v))
        elif k=='raw': s.eat(); a=('str',v[1:-1].encode())
        elif k=='chr':
            s.eat(); b=unq(v); a=('num',ord(b.decode('utf-8')) if len(b)>1 else b[0])
        elif v=='(':
            s.eat(); a=s.expr(); s.eat(')')
        elif v in ('[','map','struct'):
            ty=s.type()
            if s.peek()=='{': a=s.complit(ty)
            elif s.peek()=='(':
                s.eat(); x=s.expr(); s.eat(')'); a=('conv',ty,x)
            else: a=('type',ty)
        elif v=='func':
            s.type()
            s.skip_braces(); a=('func',)
        elif k=='id':
            s.eat(); a=('id',v)
        else: raise SyntaxError('primary %r at %d'%(v,pos))
        while True:
            p=s.peek()
            if p=='.':
                s.eat()
                if a[0]=='id': a=('id',a[1]+'.'+s.eat()[1])
                else: a=('sel',a,s.eat()[1])
            elif p=='(':
                s.eat(); args=[]
                while s.peek()!=')':
                    if s.peek()=='[' or s.peek()=='map': 
                        args.append(s.primary_or_type())
                    else: args.append(s.expr())
                    if s.peek()=='...': s.eat()
                    if s.peek()==',': s.eat()
                s.eat(')'); a=('call',a,args)
            elif p=='[':
                s.eat()
                lo=None;hi=None
                if s.peek()!=':': lo=s.expr()
                if s.peek()==':':
                    s.eat()
                    if s.peek()!=']': hi=s.expr()
                    s.eat(']'); a=('slice',a,lo,hi)
                else:
                    s.eat(']'); a=('index',a,lo)
            elif p=='{' and a[0]=='id' and s.lit_ok: a=s.complit(('name',a[1]))
            else: return a
    lit_ok=True
    def primary_or_type(s):
        return s.expr()
    def complit(s,ty):
        s.eat('{'); el=[]
        while s.peek()!='}':
            def item():
                if s.peek()=='{':
                    ety=ty[1] if ty[0]=='slice' else (ty[2] if ty[0]=='map' else None)
                    return s.complit(ety or ('name','?'))
                return s.expr()
            k=None;v=item()
            if s.peek()==':':
                s.eat(); k=v; v=item()
            el.append((k,v))
            if s.peek()==',': s.eat()
        s.eat('}')
        return ('lit',ty,el)
def tables(path):
    """all (function, variable, literal) of the tables in the file"""
    src=open(path).read()
    toks=tokenize(src)
    out=[]; fn=None
    i=0
    while i<len(toks):
        if toks[i][1]=='func' and toks[i+1][0]=='id' : fn=toks[i+1][1]
        if toks[i][1]==':=' and toks[i+1][1]=='[' or (toks[i][1]=='=' and toks[i+1][1]=='['):
            p=P(toks); p.i=i+1
            try:
                e=p.expr()
                if e[0]=='lit':
                    out.append((fn,toks[i-1][1],e)); i=p.i; continue
            except SyntaxError as ex:
                print('skip',path,fn,ex)
        i+=1
    return out
if __name__=='__main__':
    import sys
    for f in sys.argv[1:]:
        for fn,v,e in tables(f):
            print(f,fn,v,len(e[2]),[n for n,_ in e[1][1][1]] if e[1][1][0]=='struct' else e[1])
