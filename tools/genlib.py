"""Shared helpers for the model generators: positions of C functions in the source."""
import re
SRC='/repo/src/WBMatrix/WBMatrix.c'
src=open(SRC).read()
LINES={}
for m in re.finditer(r'^(\w+) (\w+)\(([^)]*)\)[^\n]*\n\{\n(.*?)^\}',src,re.M|re.S):
    LINES[m.group(2)]=(src[:m.start()].count('\n')+1, src[:m.end()].count('\n')+1)
def cite(f):
    a,b=LINES[f]
    return "`%s` — `/repo/src/WBMatrix/WBMatrix.c:%d-%d`."%(f,a,b)
def table(name):
    m=re.search(r'^\w+ %s\[[^\]]*\] = \{(.*?)\};'%re.escape(name),src,re.M|re.S)
    return [x.strip() for x in m.group(1).replace('\\','').split(',')], src[:m.start()].count('\n')+1, src[:m.end()].count('\n')+1
