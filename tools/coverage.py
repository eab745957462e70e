#!/usr/bin/env python3
"""Which C functions of /repo are cited by which definitions of the model. Writes COVERAGE.md; prints functions without a citation and
citations that point outside their file."""
import re, os, glob
R='/repo/'
files=sorted(glob.glob(R+'src/**/*.c',recursive=True))+[
 R+'examples/STM32G070RB_MODBUS_SLAVE/Core/Src/modbus_driver_interface.c',
 R+'examples/STM32G070RB_MODBUS_MASTER/Drivers/STM32G0_Drivers/modbus_driver_interface.c',
 R+'examples/STM32G070RB_MODBUS_SLAVE/Core/Src/main.c',
 R+'examples/STM32G070RB_MODBUS_MASTER/Core/Src/main.c']
files+=[f for f in glob.glob(R+'examples/**/modbus_master_data_interface.c',recursive=True)]
files+=[f for f in glob.glob(R+'examples/**/LED_driver.c',recursive=True)]
funcs=[]
for f in files:
    L=open(f,errors='replace').read().split('\n')
    i=0
    while i<len(L):
        m=re.match(r'^(?!typedef|struct|enum|#|//|/\*)[A-Za-z_][\w \t\*]*?\b(\w+)\s*\(([^;]*)$',L[i])
        if m and not L[i].rstrip().endswith(';'):
            j=i
            while j<len(L) and '{' not in L[j] and ';' not in L[j]: j+=1
            if j<len(L) and '{' in L[j]:
                d=0;k=j
                while k<len(L):
                    d+=L[k].count('{')-L[k].count('}')
                    if d==0: break
                    k+=1
                funcs.append((f[len(R):],m.group(1),i+1,k+1)); i=k
        i+=1
cites=[]
SD='STM32G070RB_MODBUS_SLAVE/Core/Src/modbus_driver_interface.c'
MD='STM32G070RB_MODBUS_MASTER/Drivers/STM32G0_Drivers/modbus_driver_interface.c'
for p in sorted(glob.glob('lean/Verif/Model/*.lean')):
    s=open(p).read()
    pos=[(m.start(),m.end()) for m in re.finditer(r'/--.*?-/',s,re.S)]
    for a,b in pos:
        c=s[a:b]
        m=re.match(r'\s*(?:@\[[^\]]*\]\s*)*(?:private\s+)?(def|structure|inductive|abbrev|instance|theorem)?\s*([\w\.\']+)?',s[b:])
        name=m.group(2) if m and m.group(1) else None
        if name is None:
            k=list(re.finditer(r'^(?:def|structure|inductive|abbrev)\s+([\w\.\']+)',s[:a],re.M))
            name=k[-1].group(1) if k else '?'
        cur=None
        if os.path.basename(p)=='Driver.lean': cur=MD if a>s.index('structure MasterSys') else SD
        for t in re.finditer(r'([\w/]+\.[ch]|slave driver|master driver)\b|:(\d+)(?:-(\d+))?',c,re.I):
            if t.group(1): cur={'slave driver':SD,'master driver':MD}.get(t.group(1).lower(),t.group(1))
            elif cur: cites.append((os.path.basename(p)[:-5],name,cur,int(t.group(2)),int(t.group(3) or t.group(2)),c))
        # names of functions mentioned
        for f in funcs:
            if re.search(r'`'+f[1]+r'`',c): cites.append((os.path.basename(p)[:-5],name,None,f[1],None,c))
bad=0
for mod,name,f,a,b,c in cites:
    if f is None: continue
    n=[x for x in files+glob.glob(R+'src/**/*.h',recursive=True)+glob.glob(R+'examples/**/*.h',recursive=True)+glob.glob(R+'examples/**/*.c',recursive=True)+glob.glob(R+'test/**/*.[ch]',recursive=True) if x.endswith('/'+f) or x.endswith(f)]
    if not n: print('no file',mod,name,f); bad+=1; continue
    if all(b>open(x,errors='replace').read().count('\n')+1 for x in n): print('beyond end',mod,name,f,a,b); bad+=1
out=['# Which C functions the model covers','','Generated by `tools/coverage.py` from the citations in `lean/Verif/Model/`: a definition is listed for a function if its comment names the function or cites lines of it.','','| file | function | lines | definitions |','|---|---|---|---|']
un=[]
for f,fn,a,b in funcs:
    ds=[]
    for mod,name,cf,x,y,c in cites:
        hit = (cf is None and x==fn and True) or (cf is not None and f.endswith(cf) and not (y<a or x>b))
        if hit and (mod,name) not in ds: ds.append((mod,name))
    if not ds: un.append((f,fn,a,b))
    out.append('| %s | `%s` | %d-%d | %s |'%(f,fn,a,b,', '.join('%s.`%s`'%d for d in ds) or '**not modelled**'))
open('COVERAGE.md','w').write('\n'.join(out)+'\n')
print(len(funcs),'functions,',len(un),'without citation; bad citations:',bad)
for u in un: print(u)
