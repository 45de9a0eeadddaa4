"""Read the letter tables of /repo/aksharamukha as text (ast), without importing them.

`load()` returns (modules, fallback, gm):
  modules  : {(dir, name): {section: (lineno, [strings])}}  as written in the file
  fallback : {CharmapList: {key: {script: value}}}
  gm       : {name: value} literal constants of GeneralMap.py (with lines)
`extend(...)` re-computes GeneralMap.add_additional_chars on those tables.
"""
import ast, os, glob
ROOT='/repo/aksharamukha'

class Ev:
    def __init__(s, env): s.env=env
    def ev(s, n):
        if isinstance(n, ast.Constant): return n.value
        if isinstance(n, ast.List): return [s.ev(x) for x in n.elts]
        if isinstance(n, ast.Tuple): return tuple(s.ev(x) for x in n.elts)
        if isinstance(n, ast.Dict): return {s.ev(k): s.ev(v) for k,v in zip(n.keys,n.values)}
        if isinstance(n, ast.UnaryOp) and isinstance(n.op, ast.USub): return -s.ev(n.operand)
        if isinstance(n, ast.BinOp) and isinstance(n.op, ast.Add): return s.ev(n.left)+s.ev(n.right)
        if isinstance(n, ast.Name): return s.env[n.id]
        if isinstance(n, ast.Subscript):
            v=s.ev(n.value)
            if isinstance(n.slice, ast.Slice):
                return v[(s.ev(n.slice.lower) if n.slice.lower else None):(s.ev(n.slice.upper) if n.slice.upper else None)]
            return v[s.ev(n.slice)]
        if isinstance(n, ast.Call):
            f=n.func
            if isinstance(f, ast.Name) and f.id=='chr': return chr(s.ev(n.args[0]))
            if isinstance(f, ast.Name) and f.id=='range': return range(*[s.ev(a) for a in n.args])
            if isinstance(f, ast.Attribute) and f.attr=='join': return s.ev(f.value).join(s.ev(n.args[0]))
            if isinstance(f, ast.Attribute) and f.attr=='split': return s.ev(f.value).split(s.ev(n.args[0]))
        if isinstance(n, ast.ListComp):
            g=n.generators[0]; out=[]
            for x in s.ev(g.iter):
                e=dict(s.env); e[g.target.id]=x
                out.append(Ev(e).ev(n.elt))
            return out
        raise ValueError(ast.dump(n)[:200])

def module(path):
    env={}; lines={}
    t=ast.parse(open(path,encoding='utf8').read())
    for n in t.body:
        if isinstance(n, ast.Assign) and len(n.targets)==1:
            tg=n.targets[0]
            if isinstance(tg, ast.Name):
                env[tg.id]=Ev(env).ev(n.value); lines[tg.id]=(n.lineno,n.end_lineno)
            elif isinstance(tg, ast.Subscript): # ScriptCategory['X'] = [...]
                env[tg.value.id][Ev(env).ev(tg.slice)]=Ev(env).ev(n.value)
    return env, lines

def load():
    gm,gml=module(ROOT+'/GeneralMap.py')
    fb,fbl=module(ROOT+'/FallBack.py')
    mods={}
    for d in ['MainIndic','EastIndic','Roman','NonIndic']:
        for f in sorted(glob.glob(f'{ROOT}/ScriptMap/{d}/*.py')):
            n=os.path.basename(f)[:-3]
            if n in('__init__','SiddhamRanjana','kana2roman'): continue
            mods[(d,n)]=module(f)
    return mods,fb,fbl,gm,gml

def scriptdir(gm, name):
    for d in ['MainIndic','EastIndic','Roman','NonIndic']:
        if name in gm[d]: return d
    return None

def extend(env, name, fb, gm):
    """GeneralMap.add_additional_chars"""
    env={k:(list(v) if isinstance(v,list) else v) for k,v in env.items()}
    for cl in gm['CharmapLists']:
        base=ord(gm['InterAdd'][cl])
        for num,(ch,mp) in enumerate(fb[cl].items()):
            if name in mp: env[cl].append(mp[name])
            elif name=='Inter': env[cl].append(chr(base+num))
            else:
                mc='OthersRev' if name in gm['ReversibleScripts'] else 'OthersNonRev'
                first='' if mp[mc][0]==-1 else env[cl][mp[mc][0]]
                if len(mp[mc])>1:
                    second = env['NuktaMap'][0] if 'nukta' in mp[mc] else mp[mc][1]
                    env[cl].append(first+second)
                else: env[cl].append(first)
    return env
if __name__=='__main__':
    mods,fb,fbl,gm,gml=load()
    SECS=['VowelMap','SouthVowelMap','ModernVowelMap','SinhalaVowelMap','VowelSignMap','SouthVowelSignMap','ModernVowelSignMap','SinhalaVowelSignMap','ViramaMap','AyogavahaMap','NuktaMap','ConsonantMap','SouthConsonantMap','NuktaConsonantMap','SinhalaConsonantMap','SignMap','NumeralMap','Aytham','OmMap']
    import collections
    print([ (n,scriptdir(gm,n)) for n in gm['IndicScripts']+gm['LatinScripts'] if (scriptdir(gm,n),n) not in mods])
    shapes=collections.defaultdict(list)
    for (d,n),(e,l) in mods.items():
        try: x=extend(e,n,fb,gm)
        except Exception as ex: print('FAIL',d,n,repr(ex)); continue
        sh=tuple(len(x[s]) if s in x else None for s in SECS)
        shapes[sh].append(n)
        for s in SECS:
            if s in x and '' in x[s]: print('EMPTY',n,s,[i for i,v in enumerate(x[s]) if v==''])
        extra=[k for k in e if k not in SECS]
        if extra: print('extra',n,extra)
    print(SECS)
    for sh,ns in shapes.items(): print(sh,len(ns),ns[:12])
