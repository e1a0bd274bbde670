#!/usr/bin/env python3
"""Transcribe /repo/pyogp/lib/base/message/data/message_template.msg into Lean, and parse it with Python's own `re` module (the patterns of
template_parser.py) to obtain the templates that the Lean parser is then proved to produce."""
import re, os
SRC='/repo/pyogp/lib/base/message/data/message_template.msg'
OUT='/verif/lean/Verif/Data'
lines=open(SRC,encoding='ascii',newline='').read().split('\n')
assert lines[-1]==''; lines=lines[:-1]
assert not any('\r' in l for l in lines)
start_re=r'.*\{.*'; end_re=r'.*\}.*'
block_re=r'.*?(\w+)\s+(\w+)(\s+(\d+))?.*'
head_re=r'.*?(\w+)\s+(\w+)\s+(\w+)\s+(\w+)\s+(\w+)(\s+(\w+))?.*'
version_re="version.(.+)"; comment_re=r"^\s*//.*$"
FREQ={'Low':'low','Medium':'medium','High':'high','Fixed':'fixed'}
TRUST={'Trusted':'trusted','NotTrusted':'notTrusted'}
ENC={'Unencoded':'unencoded','Zerocoded':'zerocoded'}
DEP={'Deprecated':'deprecated','UDPDeprecated':'udpDeprecated','UDPBlackListed':'udpBlackListed','NotDeprecated':'notDeprecated',None:'notDeprecated'}
BT={'Single':'single','Multiple':'multiple','Variable':'variable'}
TY={'U8':('u8',1),'U16':('u16',2),'U32':('u32',4),'U64':('u64',8),'S8':('s8',1),'S16':('s16',2),'S32':('s32',4),'S64':('s64',8),'F32':('f32',4),
 'F64':('f64',8),'LLVector3':('vector3',12),'LLVector3d':('vector3d',24),'LLVector4':('vector4',16),'LLQuaternion':('quaternion',12),
 'LLUUID':('uuid',16),'BOOL':('bool',1),'IPADDR':('ipaddr',4),'IPPORT':('ipport',2)}
state=0; version=None; chunks=[]; cur=[]; templates=[]
for raw in lines:
    line=raw+'\n'; cur.append(raw)
    if re.match(comment_re,line,re.A): continue
    s=re.match(start_re,line); e=re.match(end_re,line)
    if version is None:
        m=re.match(version_re,line)
        if m:
            version=m.group(1).split()[0]
            assert state==0
            chunks.append((cur,None)); cur=[]
    if s: state+=1
    if state==1:
        m=re.match(head_re,line,re.A)
        if m:
            g=m.groups(); n=int(g[2],0)
            if g[1]=='Fixed': num=n&255; hx=[(n>>24)&255,(n>>16)&255,(n>>8)&255,n&255]
            else:
                num=n; hx={'Low':[255,255],'Medium':[255],'High':[]}[g[1]]+[n&255]
            templates.append(dict(name=g[0],freq=FREQ[g[1]],num=num,hex=hx,trust=TRUST[g[3]],enc=ENC[g[4]],dep=DEP[g[6]],blocks=[]))
    if state==2:
        m=re.match(block_re,line,re.A)
        if m:
            bt=BT[m.group(2)]
            templates[-1]['blocks'].append((m.group(1),bt,int(m.group(4)) if bt=='multiple' else 0,[]))
    if state==3:
        m=re.match(block_re,line,re.A)
        if m:
            t=m.group(2)
            if t in('Fixed','Variable'): ty,sz=t.lower(),int(m.group(4))
            else: ty,sz=TY[t]
            templates[-1]['blocks'][-1][3].append((m.group(1),ty,sz))
    if e:
        state-=1
        if state==0: chunks.append((cur,templates[-1])); cur=[]
assert state==0
tail=cur
def lit(s): return '"'+s.replace('\\','\\\\').replace('"','\\"').replace('\t','\\t')+'"'
def raw(t):
    bs=[]
    for n,bt,k,vs in reversed(t['blocks']):
        bs.append(f'⟨"{n}", .{bt}, {k}, [' + ', '.join(f'⟨"{a}", some .{b}, some {c}⟩' for a,b,c in reversed(vs))+']⟩')
    return f'⟨"{t["name"]}", .{t["freq"]}, {t["num"]}, {t["hex"]}, some .{t["trust"]}, some .{t["enc"]}, some .{t["dep"]},\n    ['+',\n     '.join(bs)+']⟩'
def known(t):
    bs=[]
    for n,bt,k,vs in t['blocks']:
        bs.append(f'⟨"{n}", .{bt}, {k}, [' + ', '.join(f'⟨"{a}", .{b}, {c}⟩' for a,b,c in vs)+']⟩')
    return f'⟨"{t["name"]}", .{t["freq"]}, {t["num"]}, [], some .{t["trust"]}, some .{t["enc"]}, some .{t["dep"]},\n    ['+',\n     '.join(bs)+']⟩'
def ch(s): return '['+', '.join(f"'{c}'" for c in s)+']'
first=chunks[0]; rest=chunks[1:]
assert first[1] is None and all(c[1] for c in rest)
PER=60
bad=[]
parts=[rest[i:i+PER] for i in range(0,len(rest),PER)]
HEAD="import Verif.Data.Chars\n\n/-! Generated by `tools/gen_template.py` from `message/data/message_template.msg`: part %s. -/\n\nnamespace Pyogp.Embedded\n\n"
for k,part in enumerate(parts):
    o=[HEAD%(k+1)]
    off=k*PER
    for i,(ls,t) in enumerate(part):
        j=off+i
        o.append(f'/-- Lines of `message_template.msg` up to the end of `{t["name"]}`. -/\ndef c{j} : List (List Char) :=\n  ['+',\n   '.join('chars! '+lit(l) for l in ls)+']\n')
        o.append(f'/-- `{t["name"]}` as the parser creates it. -/\ndef r{j} : RawTemplate :=\n  {raw(t)}\n')
        o.append(f'/-- `{t["name"]}` in file order. -/\ndef t{j} : Template :=\n  {known(t)}\n')
        o.append(f'theorem p{j} : ChunkOk c{j} r{j} := by intro v older; kernel_rfl\ntheorem k{j} : r{j}.known = some t{j} := by kernel_rfl\ntheorem n{j} : t{j}.name = String.ofList {ch(t["name"])} := by kernel_rfl\n')
        bl='['+',\n   '.join('('+ch(b[0])+', ['+', '.join(ch(v[0]) for v in b[3])+'])' for b in t['blocks'])+']'
        o.append(f'/-- The names of the blocks and variables of `{t["name"]}`. -/\ndef b{j} : List (List Char × List (List Char)) :=\n  {bl}\n')
        o.append(f'theorem w{j} : Checked t{j} := ⟨b{j}, by kernel_rfl, by kernel_rfl, by kernel_rfl⟩\n')
    idx=range(off,off+len(part))
    o.append(f'/-- Part {k+1} of the file. -/\ndef lines{k+1} : List (List (List Char)) := ['+', '.join(f'c{j}' for j in idx)+']\n')
    o.append(f'/-- Part {k+1} of the templates, as parsed. -/\ndef raws{k+1} : List RawTemplate := ['+', '.join(f'r{j}' for j in idx)+']\n')
    o.append(f'/-- Part {k+1} of the templates. -/\ndef templates{k+1} : List Template := ['+', '.join(f't{j}' for j in idx)+']\n')
    o.append(f'/-- The names in part {k+1}. -/\ndef names{k+1} : List (List Char) :=\n  ['+',\n   '.join(ch(t["name"]) for _,t in part)+']\n')
    def fa(f): 
        s='.nil'
        for j in reversed(idx): s=f'(.cons {f}{j} {s})'
        return s
    o.append(f'theorem parsed{k+1} : List.Forall₂ ChunkOk lines{k+1} raws{k+1} :=\n  {fa("p")}\n')
    o.append(f'theorem known{k+1} : List.Forall₂ (fun r t => RawTemplate.known r = some t) raws{k+1} templates{k+1} :=\n  {fa("k")}\n')
    o.append(f'theorem named{k+1} : List.Forall₂ (fun (t : Template) w => t.name = String.ofList w) templates{k+1} names{k+1} :=\n  {fa("n")}\n')
    def fm():
        s='(List.forall_mem_nil _)'
        for j in reversed(idx): s=f'(List.forall_mem_cons.mpr ⟨w{j}, {s}⟩)'
        return s
    o.append(f'theorem checked{k+1} : ∀ t ∈ templates{k+1}, Checked t :=\n  {fm()}\n')
    if any(t['freq']=='low' and t['num']>255 for _,t in part) and not bad:
        bad.append(next(off+i for i,(_,t) in enumerate(part) if t['freq']=='low' and t['num']>255))
        o.append(f'/-- Python 2.7 cannot parse this message: its number does not fit a byte. -/\ntheorem refused (v : List Char) (older : List RawTemplate) : parseLines .v27 ⟨some v, 0, older⟩ c{bad[0]} = .error .structError := by kernel_rfl\n')
    o.append('end Pyogp.Embedded\n')
    open(f'{OUT}/Template{k+1}.lean','w').write('\n'.join(o))
n=len(parts)
o=[''.join(f'import Verif.Data.Template{k+1}\n' for k in range(n))+'\n/-! Generated by `tools/gen_template.py`: all of `message/data/message_template.msg`. -/\n\nnamespace Pyogp.Embedded\n']
o.append('/-- The first lines, up to and including the version. -/\ndef headLines : List (List Char) :=\n  ['+',\n   '.join('chars! '+lit(l) for l in first[0])+']\n')
o.append('/-- The lines after the last message. -/\ndef tailLines : List (List Char) :=\n  ['+',\n   '.join('chars! '+lit(l) for l in tail)+']\n')
o.append(f'theorem head_ok (ver : PyVersion) : parseLines ver ⟨none, 0, []⟩ headLines = .ok ⟨some {ch(version)}, 0, []⟩ := by kernel_rfl\n')
o.append('theorem tail_ok (ver : PyVersion) (v : List Char) (older : List RawTemplate) : parseLines ver ⟨some v, 0, older⟩ tailLines = .ok ⟨some v, 0, older⟩ := by kernel_rfl\n')
for nm,ty in [('lines','List (List (List Char))'),('raws','List RawTemplate'),('templates','List Template'),('names','List (List Char)')]:
    o.append(f'/-- All parts. -/\ndef all_{nm} : {ty} := '+' ++ '.join(f'{nm}{k+1}' for k in range(n))+'\n')
def app(f):
    s=f'{f}1'
    for k in range(1,n): s=f'(forall₂_append {s} {f}{k+1})'
    return s
o.append(f'theorem all_parsed : List.Forall₂ ChunkOk all_lines all_raws := {app("parsed")}\n')
o.append(f'theorem all_known : List.Forall₂ (fun r t => RawTemplate.known r = some t) all_raws all_templates := {app("known")}\n')
o.append(f'theorem all_named : List.Forall₂ (fun (t : Template) w => t.name = String.ofList w) all_templates all_names := {app("named")}\n')
o.append('theorem all_checked : ∀ t ∈ all_templates, Checked t := '+
  (lambda s: s)(__import__('functools').reduce(lambda a,k: f'(forall_mem_append {a} checked{k+1})', range(1,n), 'checked1'))+'\n')
o.append(f'theorem all_lines_split : all_lines = all_lines.take {bad[0]} ++ c{bad[0]} :: all_lines.drop {bad[0]+1} := by kernel_rfl\n')
o.append('/-- The lines of `message_template.msg`. -/\ndef file : List (List Char) := headLines ++ all_lines.flatten ++ tailLines\n')
o.append('end Pyogp.Embedded\n')
open(f'{OUT}/Template.lean','w').write('\n'.join(o))
print(len(rest),'templates',n,'parts', 'first low>255:', next((t['name'],t['num']) for _,t in rest if t['freq']=='low' and t['num']>255))
