"""Parse Go composite literals of (nested) int slices/arrays out of a source file of /repo."""
import re
def parse_tables(path):
    src=open(path).read()
    src=re.sub(r'//[^\n]*','',src)
    src=re.sub(r'/\*.*?\*/',lambda m:'\n'*m.group(0).count('\n'),src,flags=re.S)
    out={}
    for m in re.finditer(r'^var (\w+)\s*=\s*((?:\[[^\]]*\])+)int\s*\{',src,re.M):
        i=m.end()-1
        line=src.count('\n',0,m.start())+1
        def parse(i):
            assert src[i]=='{'
            i+=1; items=[]
            while True:
                while src[i] in ' \t\n\r,': i+=1
                if src[i]=='}': return items,i+1
                if src[i]=='{':
                    it,i=parse(i); items.append(it)
                elif src[i]=='[':
                    j=src.index('{',i); it,i=parse(j); items.append(it)
                else:
                    j=i
                    while src[j] not in ',}\n': j+=1
                    e=src[i:j].strip()
                    items.append(e); i=j
        it,end=parse(i)
        out[m.group(1)]=(it,line,src.count('\n',0,end)+1,m.group(2))
    return out
def leaves(t,path=()):
    if t and not isinstance(t[0],list): yield path,t
    else:
        for i,x in enumerate(t): yield from leaves(x,path+(i,))
