#!/usr/bin/env python3
"""Fold the results of the automatic mutation runs into seeded/LOG.jsonl (ids auto_*)."""
import json,os,sys
SRC=sys.argv[1] if len(sys.argv)>1 else '/tmp/mut/auto/results.jsonl'
LOG=os.path.join(os.path.dirname(__file__),'..','seeded','LOG.jsonl')
WHY={'MReq.param':'equivalent: the quantity parameter is never read for that function code',
 'exCallback':'unobservable: the previous-value variables are written and never read by the example program',
 'rtorValue':'unreachable: no supported baud rate reaches the cap',
 'RET_NULL_PTR_ERROR':'unobservable: internal return code, only compared with RET_OK and other codes',
 'RET_ERROR_UNKNOWN_MAPPER_FUN_CODE':'unobservable: internal return code, only compared with RET_OK and other codes',
 'RET_ERROR_EXCEPTION_CODE_RECIVED':'unobservable: internal return code, only compared with RET_OK and other codes',
 'tableSize':'equivalent: at size equality both branches give the same value',
 'Config.default':'no claim depends on the default value: every theorem ranges over all well-formed configurations',
 'xInitMem':'survived at that commit; tightened since (see auto_xregs)',
 'Master.powerOn':'equivalent: initialisation overwrites the field before anything reads it',
 'masterInit':'equivalent: the flag is cleared again when a transmission starts, and not read before',
 'idxRequestWriteSingleData':'dead constant, also unused in the C source',
 'Slave.powerOn':'equivalent: initialisation overwrites the field before anything reads it'}
old=[json.loads(l) for l in open(LOG)]
have={r['id'] for r in old}
out=[]
for r in map(json.loads,open(SRC)):
    i='auto_%s_%s_%s_%s'%(r['f'].split('/')[-1][:-5],r['line'],r.get('a'),sum(map(ord,r['new']))%997)
    if i in have: continue
    have.add(i)
    if r['res']=='invalid': continue
    e={'id':i,'definition':r['deff'],'file':'lean/Verif/'+r['f'],'line':r['line'],'edit':[{'old':r['old'],'new':r['new']}],
       'claim_broken':'automatic mutation'}
    if r['res']=='killed': e['module_failed']=r['errs'][0]; e['theorems_failed']=r['errs'][1]; e['theorems_tightened']=[]
    else: e['theorems_failed']=[]; e['claim_broken']='none: '+WHY.get(r['deff'],'see note'); e['theorems_tightened']=[]
    out.append(e)
with open(LOG,'a') as f:
    for e in out: f.write(json.dumps(e,ensure_ascii=False)+'\n')
print(len(out),[e['id'] for e in out if 'see note' in e['claim_broken']])
