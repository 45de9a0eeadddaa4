"""Mechanical translation of the string-rewriting functions of /repo/aksharamukha
(ConvertFix.py, PreProcess.py, PostProcess.py, ...) into the Lean `Gen` monad.

/repo is only read as text (ast.parse); nothing of it is imported or run.
One Python function becomes one Lean definition; every Python statement becomes one
(do-)line, in order.  Functions outside the supported subset are reported and are
written by hand in Verif/Model/Manual.lean or listed as not modelled.
"""
import ast, sys, re as _re

class Unsupported(Exception): pass

def leanstr(s):
    """a Lean term for a Python string constant"""
    out=[]
    for ch in s:
        o=ord(ch)
        if ch=='"': out.append('\\"')
        elif ch=='\\': out.append('\\\\')
        elif ch=='\n': out.append('\\n')
        elif ch=='\t': out.append('\\t')
        elif o<32 or 0x7f<=o<0xa1 or (0x200b<=o<=0x200f) or (0x2028<=o<=0x202e) or o==0xfeff or o in(0xad,0x34f,0x61c) or 0xe000<=o<=0xf8ff and False:
            if o<=0xffff: out.append('\\u%04x'%o)
            else: raise Unsupported('ctrl')
        else: out.append(ch)
    return '(u! "'+''.join(out)+'")'

RESERVED={'at','end','match','from','if','then','else','fun','let','in','do','where','with','by','open','local','prefix','infix','postfix','notation','macro','show','have','this','return','for','some','none','true','false','section','variable','instance','class','structure','def','theorem','example','end_','unless','try','catch','finally','mut','set','list','abbrev','import','export','private','protected','partial','using','at_','calc','nomatch','Type','Prop','Sort','max','min','id','not','and','or'}
def ident(n):
    n=n.replace('-','_')
    if n in RESERVED: return n+"'"
    if n.startswith('_'): n='u'+n
    return n

SCRIPTMODS=set()   # names imported as script modules
MODS={'PreP':'PreProcess','GM':'GM','PostProcess':'PostProcess','CF':'ConvertFix','PP':'PostProcess','PrP':'PreProcess','pp':'PostProcess','ConvertFix':'ConvertFix','PreProcess':'PreProcess'}

FNS={}
def curpos(fn):
    args=[a.arg for a in fn.args.args]
    for nm in ('Strng','txt'):
        if nm in args: return args.index(nm)
    return 0

class Fn:
    def __init__(self, mod, fn, known):
        self.mod=mod; self.fn=fn; self.known=known
        self.tmp=0
        self.calls=set()
    # -- helpers
    def fresh(self):
        self.tmp+=1; return f't{self.tmp}'

    def isdyn(self, n):
        return any(isinstance(x, ast.Name) and x.id in self.dyn for x in ast.walk(n))

    # -- static expressions: return (lean string, list of bind lines)
    def ex(self, n, B):
        """static expression -> Lean term; fallible parts are bound first (appended to B)"""
        if self.isdyn(n): raise Unsupported('dynamic value in static position: '+ast.unparse(n)[:80])
        if isinstance(n, ast.Constant):
            v=n.value
            if isinstance(v,bool): return 'true' if v else 'false'
            if isinstance(v,int): return str(v) if v>=0 else f'({v})'
            if isinstance(v,str): return leanstr(v)
            raise Unsupported('const '+repr(v))
        if isinstance(n, ast.Name):
            return ident(n.id)
        if isinstance(n, ast.List):
            return '['+', '.join(self.ex(x,B) for x in n.elts)+']'
        if isinstance(n, ast.Tuple):
            return '('+', '.join(self.ex(x,B) for x in n.elts)+')'
        if isinstance(n, ast.Dict):
            return '['+', '.join('('+self.ex(k,B)+', '+self.ex(v,B)+')' for k,v in zip(n.keys,n.values))+']'
        if isinstance(n, ast.UnaryOp):
            if isinstance(n.op, ast.Not): return '(!'+self.ex(n.operand,B)+')'
            if isinstance(n.op, ast.USub): return '(-'+self.ex(n.operand,B)+')'
        if isinstance(n, ast.BinOp):
            if isinstance(n.op, ast.Add):
                return '('+self.ex(n.left,B)+' ++ '+self.ex(n.right,B)+')'
            if isinstance(n.op, ast.Mult):
                return '(pyMul '+self.ex(n.left,B)+' '+self.ex(n.right,B)+')'
            if isinstance(n.op, ast.Sub):
                return '('+self.ex(n.left,B)+' - '+self.ex(n.right,B)+')'
        if isinstance(n, ast.BoolOp):
            op=' && ' if isinstance(n.op, ast.And) else ' || '
            return '('+op.join(self.boolex(v,B) for v in n.values)+')'
        if isinstance(n, ast.Compare): return self.cmp(n,B)
        if isinstance(n, ast.Attribute):
            if isinstance(n.value, ast.Name):
                if n.value.id=='GM': return 'GM.'+n.attr
                if n.value.id in SCRIPTMODS: 
                    return f'(modAttr {leanstr(n.value.id)} .{n.attr})'
                if n.value.id=='string' and n.attr=='punctuation': return 'string_punctuation'
            raise Unsupported('attr '+ast.unparse(n))
        if isinstance(n, ast.Subscript):
            v=self.ex(n.value,B)
            if isinstance(n.slice, ast.Slice):
                lo=f'(some {self.ex(n.slice.lower,B)})' if n.slice.lower else 'none'
                hi=f'(some {self.ex(n.slice.upper,B)})' if n.slice.upper else 'none'
                if n.slice.step: raise Unsupported('step')
                return f'(pySlice {v} {lo} {hi})'
            if isinstance(n.value, ast.Attribute) and n.value.attr in('Gemination',):
                t=self.fresh(); B.append(f'let {t} ← dictGet {v} {self.ex(n.slice,B)}'); return t
            t=self.fresh()
            idx='indexChar' if isinstance(n.value,ast.Name) and n.value.id=='wordNna' else 'index'
            B.append(f'let {t} ← {idx} {v} {self.ex(n.slice,B)}')
            return t
        if isinstance(n, ast.ListComp):
            return self.comp(n,B)
        if isinstance(n, ast.GeneratorExp):
            return self.comp(n,B)
        if isinstance(n, ast.Call): return self.call(n,B)
        if isinstance(n, ast.JoinedStr):
            parts=[]
            for v in n.values:
                if isinstance(v,ast.Constant): parts.append(leanstr(v.value))
                elif isinstance(v,ast.FormattedValue) and v.format_spec is None and v.conversion==-1: parts.append(self.ex(v.value,B))
                else: raise Unsupported('fstring')
            return '('+' ++ '.join(parts)+')'
        raise Unsupported(type(n).__name__+' '+ast.unparse(n)[:80])

    def boolex(self,n,B):
        return self.ex(n,B)

    def cmp(self,n,B):
        if len(n.ops)!=1: raise Unsupported('chain cmp')
        a,op,b=n.left,n.ops[0],n.comparators[0]
        A=self.ex(a,B); Bx=self.ex(b,B)
        if isinstance(op,(ast.Eq,ast.Is)): return f'(pyEq {A} {Bx})'
        if isinstance(op,(ast.NotEq,ast.IsNot)): return f'(!(pyEq {A} {Bx}))'
        if isinstance(op,ast.In): return f'(pyIn {A} {Bx})'
        if isinstance(op,ast.NotIn): return f'(!(pyIn {A} {Bx}))'
        if isinstance(op,ast.Lt): return f'(decide ({A} < {Bx}))'
        if isinstance(op,ast.Gt): return f'(decide ({A} > {Bx}))'
        raise Unsupported('cmp')

    def pat(self,t):
        if isinstance(t,ast.Name): return ident(t.id)
        if isinstance(t,ast.Tuple): return '('+', '.join(self.pat(x) for x in t.elts)+')'
        raise Unsupported('target '+ast.unparse(t))

    def comp(self,n,B):
        gens=n.generators
        def go(i):
            if i==len(gens):
                inner=[]
                e=self.ex(n.elt,inner)
                return ('one',e,inner)
            g=gens[i]
            it=self.ex(g.iter,B if i==0 else self._nobind())
            p=self.pat(g.target)
            conds=[]
            inner0=[]
            for c in g.ifs: conds.append(self.ex(c,inner0))
            if inner0: raise Unsupported('bind in comp cond')
            src=it
            for c in conds: src=f'({src}.filter fun {p} => {c})'
            k=go(i+1)
            if k[0]=='one':
                if k[2]:
                    body='; '.join(k[2]+[f'pure {k[1]}'])
                    if i!=0: raise Unsupported('bind in nested comp')
                    t=self.fresh()
                    B.append(f'let {t} ← pmap {src} fun {p} => (do {body})')
                    return ('list',t)
                return ('list',f'({src}.map fun {p} => {k[1]})')
            return ('list',f'({src}.flatMap fun {p} => {k[1]})')
        r=go(0)
        return r[1]
    def _nobind(self):
        class L(list):
            def append(s,x): raise Unsupported('bind in nested comp')
        return L()

    def call(self,n,B):
        f=n.func
        A=n.args
        if isinstance(f, ast.Attribute):
            if isinstance(f.value, ast.Name) and f.value.id=='GM':
                if f.attr in('CrunchSymbols','CrunchList'):
                    t=self.fresh()
                    a0 = ('.'+A[0].value if isinstance(A[0],ast.Constant) else self.ex(A[0],B)) if f.attr=='CrunchList' else self.secs(A[0],B)
                    nm='crunchSymbols' if f.attr=='CrunchSymbols' else 'crunchList'
                    B.append(f'let {t} ← {nm} {a0} {self.ex(A[1],B)}')
                    return t
            if isinstance(f.value,ast.Name) and f.value.id=='re' and f.attr=='sub' and len(A)==3:
                t=self.fresh()
                B.append(f'let {t} ← staticReSub {self.ex(A[0],B)} {self.ex(A[1],B)} {self.ex(A[2],B)}')
                return t
            if isinstance(f.value,ast.Name) and f.value.id=='re' and f.attr=='compile':
                return self.ex(A[0],B)
            if isinstance(f.value,ast.Name) and f.value.id=='unicodedata' and f.attr=='normalize' and A[0].value=='NFD':
                return f'(nfdLetter {self.ex(A[1],B)})'
            if f.attr=='join':
                return f'(pyJoin {self.ex(f.value,B)} {self.ex(A[0],B)})'
            if f.attr=='replace' and len(A)==2:
                return f'(pyReplace {self.ex(f.value,B)} {self.ex(A[0],B)} {self.ex(A[1],B)})'
            if f.attr=='split':
                if len(A)==1: return f'(pySplit {self.ex(f.value,B)} {self.ex(A[0],B)})'
                return f'(pySplitWs {self.ex(f.value,B)})'
            if f.attr=='items': return f'{self.ex(f.value,B)}'
        if isinstance(f, ast.Name):
            if f.id=='zip':
                return '('+'pyZip '+' '.join(self.ex(a,B) for a in A)+')' if len(A)==2 else '(pyZip3 '+' '.join(self.ex(a,B) for a in A)+')'
            if f.id=='list': return f'(pyList {self.ex(A[0],B)})'
            if f.id=='len': return f'({self.ex(A[0],B)}).length'
            if f.id=='map' and isinstance(A[0],ast.Lambda) and len(A)==2:
                inner=[]; p=A[0].args.args[0].arg; e=self.ex(A[0].body,inner)
                if inner: raise Unsupported('bind in lambda')
                return f'({self.ex(A[1],B)}.map fun {ident(p)} => {e})'
            if f.id=='enumerate': return f'(pyEnumerate {self.ex(A[0],B)})'
            if f.id=='chr': return f'[{self.ex(A[0],B)}]'
            if f.id=='range':
                if len(A)==1: return f'(List.range {self.ex(A[0],B)})'
                if len(A)==2: return f'(pyRange {self.ex(A[0],B)} {self.ex(A[1],B)})'
            if f.id=='sorted':
                kw={k.arg:ast.unparse(k.value) for k in n.keywords}
                if kw=={}: return f'(sortStr {self.ex(A[0],B)})'
                if kw=={'key':'len','reverse':'True'}: return f'(sortByLenDesc {self.ex(A[0],B)})'
        raise Unsupported('call '+ast.unparse(n)[:100])

    def secs(self,a,B):
        if isinstance(a,ast.List) and all(isinstance(x,ast.Constant) for x in a.elts):
            return '['+', '.join('.'+x.value for x in a.elts)+']'
        return self.ex(a,B)

    # -- dynamic string expression: emits steps turning the current string into value
    def dynexpr(self,n,out):
        """n: expression over the current string; emits lines so that the current string becomes its value"""
        if isinstance(n, ast.Name) and n.id==self.cur: return
        if isinstance(n, ast.Call):
            f=n.func
            if isinstance(f, ast.Attribute) and self.isdyn(f.value) :
                if f.attr=='replace' and len(n.args)==2:
                    self.dynexpr(f.value,out)
                    B=[]; a=self.ex(n.args[0],B); b=self.ex(n.args[1],B)
                    out.extend(B); out.append(f'replace {a} {b}'); return
                if f.attr in('lower','upper','title','strip') and not n.args:
                    self.dynexpr(f.value,out); out.append(f'host .{f.attr}'); return
            if isinstance(f, ast.Attribute) and isinstance(f.value,ast.Name) and f.value.id=='re' and f.attr=='sub' and len(n.args)==3:
                if isinstance(n.args[1],ast.Lambda): raise Unsupported('lambda repl')
                if n.keywords: raise Unsupported('re.sub kw')
                self.dynexpr(n.args[2],out)
                B=[]; a=self.ex(n.args[0],B); b=self.ex(n.args[1],B)
                out.extend(B); out.append(f'reSub {a} {b}'); return
            if isinstance(f, ast.Attribute) and isinstance(f.value,ast.Name) and f.value.id=='unicodedata' and f.attr=='normalize':
                self.dynexpr(n.args[1],out)
                out.append('host .'+n.args[0].value.lower()); return
            if isinstance(f, ast.Attribute) and isinstance(f.value,ast.Name) and f.attr=='sub' and f.value.id in self.compiled and len(n.args)==2:
                self.dynexpr(n.args[1],out)
                B=[]; b=self.ex(n.args[0],B)
                out.extend(B); out.append(f'reSub {ident(f.value.id)} {b}'); return
            # call of a translated function
            name=None
            if isinstance(f, ast.Name): name=(self.mod,f.id)
            elif isinstance(f, ast.Attribute) and isinstance(f.value,ast.Name) and f.value.id in MODS and f.value.id!='GM': name=(MODS[f.value.id],f.attr)
            if name and name in self.known:
                p=curpos(FNS[name])
                if not(len(n.args)>p and self.isdyn(n.args[p])): raise Unsupported('string arg missing')
                self.dynexpr(n.args[p],out)
                B=[]; args=[self.ex(a,B) for i,a in enumerate(n.args) if i!=p]
                kws=[f'({ident(k.arg)} := {self.ex(k.value,B)})' for k in n.keywords]
                out.extend(B)
                self.calls.add(name)
                out.append(' '.join([self.fname(name)]+args+kws)); return
        if isinstance(n, ast.BinOp) and isinstance(n.op, ast.Add):
            if self.isdyn(n.left) and not self.isdyn(n.right):
                self.dynexpr(n.left,out); B=[]; b=self.ex(n.right,B); out.extend(B); out.append(f'append {b}'); return
            if self.isdyn(n.right) and not self.isdyn(n.left):
                self.dynexpr(n.right,out); B=[]; b=self.ex(n.left,B); out.extend(B); out.append(f'prepend {b}'); return
        raise Unsupported('dyn '+ast.unparse(n)[:120])

    def fname(self,name):
        return f'{name[0]}.{ident(name[1])}'

    def cond(self,n,B):
        """dynamic condition"""
        if not self.isdyn(n): return f'(.static {self.ex(n,B)})'
        if isinstance(n, ast.Compare) and len(n.ops)==1:
            a,op,b=n.left,n.ops[0],n.comparators[0]
            if isinstance(b,ast.Name) and b.id==self.cur and not self.isdyn(a):
                A=self.ex(a,B)
                if isinstance(op,ast.In): return f'(.has {A})'
                if isinstance(op,ast.NotIn): return f'(.not (.has {A}))'
        if isinstance(n, ast.BoolOp):
            op='.and' if isinstance(n.op,ast.And) else '.or'
            r=self.cond(n.values[0],B)
            for v in n.values[1:]: r=f'({op} {r} {self.cond(v,B)})'
            return r
        if isinstance(n, ast.UnaryOp) and isinstance(n.op,ast.Not): return f'(.not {self.cond(n.operand,B)})'
        if isinstance(n, ast.Call) and isinstance(n.func,ast.Name) and n.func.id=='any':
            g=n.args[0]
            if isinstance(g,(ast.ListComp,ast.GeneratorExp)) and len(g.generators)==1:
                e=g.elt; gg=g.generators[0]
                if isinstance(e,ast.Compare) and isinstance(e.ops[0],ast.In) and isinstance(e.left,ast.Name) and e.left.id==gg.target.id and isinstance(e.comparators[0],ast.Name) and e.comparators[0].id==self.cur and not gg.ifs:
                    return f'(.hasAny {self.ex(gg.iter,B)})'
        raise Unsupported('cond '+ast.unparse(n)[:100])

    # -- statements
    def assigned(self, stmts):
        s=[]
        for st in stmts:
            for x in ast.walk(st):
                if isinstance(x,ast.Assign):
                    for t in x.targets:
                        for y in ast.walk(t):
                            if isinstance(y,ast.Name) and y.id not in self.dyn and y.id not in s: s.append(y.id)
                elif isinstance(x,ast.AugAssign) and isinstance(x.target,ast.Name):
                    if x.target.id not in self.dyn and x.target.id not in s: s.append(x.target.id)
        return s
    def usednames(self, stmts):
        return {x.id for st in stmts for x in ast.walk(st) if isinstance(x,ast.Name) and isinstance(x.ctx,ast.Load)}

    def stmts(self, ss, ind, after, live=()):
        """emit lines; `after`: statements following (for liveness)"""
        out=[]
        pad='  '*ind
        for i,st in enumerate(ss):
            rest=ss[i+1:]
            self.cite=st.lineno
            if isinstance(st, ast.Expr) and isinstance(st.value, ast.Constant): continue
            if isinstance(st, ast.Pass): continue
            if isinstance(st, (ast.Import, ast.ImportFrom)): continue
            if isinstance(st, ast.Expr) and isinstance(st.value, ast.Call) and isinstance(st.value.func,ast.Name) and st.value.func.id=='print': continue
            # result thrown away: no effect (str.replace with two strings cannot raise)
            if isinstance(st, ast.Expr) and isinstance(st.value, ast.Call) and isinstance(st.value.func,ast.Attribute) and st.value.func.attr=='replace' and isinstance(st.value.func.value,ast.Name) and st.value.func.value.id==self.cur and len(st.value.args)==2 and all(isinstance(x,ast.Constant) for x in st.value.args): continue
            if isinstance(st, ast.Return):
                if st.value is None or not self.isdyn(st.value): raise Unsupported('return '+ast.unparse(st))
                o=[]; self.dynexpr(st.value,o); out+= [pad+x for x in o]
                if rest: 
                    pass
                self.returned=True
                return out
            if isinstance(st, ast.AugAssign) and isinstance(st.op,ast.Add):
                st=ast.copy_location(ast.Assign([st.target], ast.copy_location(ast.BinOp(ast.copy_location(ast.Name(st.target.id,ast.Load()),st),ast.Add(),st.value),st)),st)
            if isinstance(st, ast.Assign):
                if len(st.targets)!=1: raise Unsupported('multi target')
                t=st.targets[0]
                if self.isdyn(st.value):
                    if not(isinstance(t,ast.Name) and t.id==self.cur): raise Unsupported('assign dyn '+ast.unparse(st)[:100])
                    o=[]; self.dynexpr(st.value,o); out+=[pad+x for x in o]; continue
                if isinstance(t,ast.Name) and t.id==self.cur: raise Unsupported('static assigned to string')
                B=[]
                if isinstance(t,ast.Name) and isinstance(st.value,ast.Call) and ast.unparse(st.value.func)=='re.compile': self.compiled[t.id]=1
                if isinstance(t,ast.Tuple) and isinstance(st.value,ast.Tuple):
                    vals=[self.ex(v,B) for v in st.value.elts]
                    out+=[pad+b for b in B]
                    for tt,v in zip(t.elts,vals): out.append(pad+f'let {self.pat(tt)} := {v}')
                    continue
                e=self.ex(st.value,B)
                out+=[pad+b for b in B]
                if isinstance(t,ast.Subscript): raise Unsupported('store subscript')
                out.append(pad+f'let {self.pat(t)} := {e}')
                continue
            if isinstance(st, ast.If):
                # returning branch
                has_ret=any(isinstance(x,ast.Return) for y in st.body+st.orelse for x in ast.walk(y))
                if has_ret: raise Unsupported('return inside if')
                av=[v for v in self.assigned(st.body+st.orelse) if v in self.usednames(rest+after) or v in live]
                dyn=self.isdyn(st.test)
                B=[]
                if dyn: c=self.cond(st.test,B)
                else: c=self.ex(st.test,B)
                out+=[pad+b for b in B]
                th=self.stmts(st.body,ind+2,rest+after,tuple(live)+tuple(av))
                el=self.stmts(st.orelse,ind+2,rest+after,tuple(live)+tuple(av))
                if av and dyn: raise Unsupported('static var in dynamic if')
                retv='pure ()' if not av else 'pure '+('('+', '.join(ident(a) for a in av)+')' if len(av)>1 else ident(av[0]))
                pp='  '*(ind+2)
                if dyn:
                    out.append(pad+f'whenDyn {c}')
                    out.append(pad+'  (do'); out+=th; out.append(pp+retv+')')
                    out.append(pad+'  (do'); out+=el; out.append(pp+retv+')')
                else:
                    if not th and not el and not av: continue
                    bindto='' if not av else 'let '+('('+', '.join(ident(a) for a in av)+')' if len(av)>1 else ident(av[0]))+' ← '
                    out.append(pad+f'{bindto}branch {c}')
                    out.append(pad+'  (do'); out+=th; out.append(pp+retv+')')
                    out.append(pad+'  (do'); out+=el; out.append(pp+retv+')')
                continue
            if isinstance(st, ast.For):
                if st.orelse: raise Unsupported('for else')
                if any(isinstance(x,(ast.Return,ast.Break,ast.Continue)) for y in st.body for x in ast.walk(y)): raise Unsupported('jump in for')
                av=[v for v in self.assigned(st.body) if v in self.usednames(rest+after)]
                tn=[x.id for x in ast.walk(st.target) if isinstance(x,ast.Name)]
                # loop carried statics
                carried=[v for v in self.assigned(st.body) if self.readbefore(v,st.body)]
                if carried: raise Unsupported('loop-carried '+','.join(carried))
                if av: raise Unsupported('static var leaves loop '+','.join(av))
                B=[]; it=self.ex(st.iter,B); out+=[pad+b for b in B]
                body=self.stmts(st.body,ind+1,[])
                if not body: continue
                out.append(pad+f'forEach {it} fun {self.pat(st.target)} => do')
                out+=body
                continue
            raise Unsupported(type(st).__name__+' '+ast.unparse(st)[:100])
        return out
    def readbefore(self,v,body):
        return self.rb(v,body)=='read'
    def rb(self,v,body):
        """'read': v may be read before being assigned; 'set': certainly assigned; None: neither"""
        for st in body:
            if isinstance(st,ast.Assign):
                if v in {x.id for x in ast.walk(st.value) if isinstance(x,ast.Name)}: return 'read'
                if any(isinstance(t,ast.Name) and t.id==v for t in st.targets): return 'set'
            elif isinstance(st,ast.AugAssign) and st.target.id==v: return 'read'
            elif isinstance(st,ast.If):
                if v in self.usednames([ast.Expr(st.test)]): return 'read'
                r1=self.rb(v,st.body); r2=self.rb(v,st.orelse)
                if 'read' in (r1,r2): return 'read'
                if r1=='set' and r2=='set': return 'set'
            elif isinstance(st,ast.For):
                if v in self.usednames([ast.Expr(st.iter)]): return 'read'
                if v in [x.id for x in ast.walk(st.target) if isinstance(x,ast.Name)]: continue
                if self.rb(v,st.body)=='read': return 'read'
            elif v in self.usednames([st]): return 'read'
        return None

    PTYPES={'reverse':'Bool','Strng':None}
    def translate(self):
        fn=self.fn
        args=[a.arg for a in fn.args.args]
        if not args: raise Unsupported('no args')
        cp=curpos(fn)
        self.cur=args[cp]; self.dyn={args[cp]}
        self.compiled={}
        defs=fn.args.defaults
        params=[]
        nd=len(args)-len(defs)
        for i,a in enumerate(args):
            if i==cp: continue
            d=defs[i-nd] if i>=nd else None
            if d is not None and isinstance(d,ast.Constant):
                v=d.value
                if isinstance(v,bool): params.append(f'({ident(a)} : Bool := {"true" if v else "false"})')
                elif isinstance(v,int): params.append(f'({ident(a)} : Int := {v})')
                elif isinstance(v,str): params.append(f'({ident(a)} : PyStr := {leanstr(v)})')
                else: raise Unsupported('default')
            elif a=='reverse': params.append('(reverse : Bool)')
            elif a in('nativize',): params.append(f'({a} : Bool)')
            elif a in('PostOptions','PreOptions','preoptions','postoptions','Options'): params.append(f'({ident(a)} : List PyStr)')
            elif a in('Source','Target','Script','src','tgt','script','variant','ScriptName','target','source'): params.append(f'({ident(a)} : PyStr)')
            else: params.append(f'({ident(a)} : PyStr)')
        self.returned=False
        body=fn.body
        lines=self.stmts(body,1,[])
        if not self.returned: raise Unsupported('no return')
        hdr=f'/-- {self.mod}.py:{fn.lineno}-{fn.end_lineno} -/\ndef {self.fname((self.mod,fn.name))}'+(' '+' '.join(params) if params else '')+' : Gen Unit := do'
        lines.append('  pure ()')
        return hdr+'\n'+'\n'.join(lines)+'\n'

def parse(mod):
    return ast.parse(open(f'/repo/aksharamukha/{mod}.py',encoding='utf8').read())

def setup():
    for mod in ['ConvertFix','PreProcess','PostProcess']:
        for n in ast.walk(parse(mod)):
            if isinstance(n,ast.ImportFrom) and n.module and 'ScriptMap' in n.module:
                for a in n.names: SCRIPTMODS.add(a.asname or a.name)

def run(verbose=True):
    setup()
    fns={}
    for mod in ['ConvertFix','PreProcess','PostProcess']:
        for n in parse(mod).body:
            if isinstance(n,ast.FunctionDef): fns[(mod,n.name)]=n   # later definitions override
    known=set(fns); FNS.update(fns)
    res={}; fails={}
    for k,n in fns.items():
        f=Fn(k[0],n,known)
        try: res[k]=(f.translate(),f.calls,n)
        except Unsupported as e: fails[k]=str(e)
        except Exception as e: fails[k]='EXC '+repr(e)
    return fns,res,fails
if __name__=='__main__':
    fns,res,fails=run()
    print(len(fns),len(res),len(fails))
    for k,v in fails.items(): print(k[0],k[1],fns[k].lineno,':',v[:150])
