#!/usr/bin/env python3
"""Transcribe the `messages` map of /repo/pyogp/lib/base/message/data/message.xml (name -> flavor, if any) into Lean.  A key that occurs twice
keeps its first place and its last value, as in a Python dict built by the LLSD parser."""
import xml.etree.ElementTree as ET
r=ET.parse('/repo/pyogp/lib/base/message/data/message.xml').getroot()
def conv(e):
    if e.tag=='map':
        k=list(e); d={}
        for i in range(0,len(k),2):
            assert k[i].tag=='key'; d[k[i].text]=conv(k[i+1])
        return d
    if e.tag=='array': return [conv(x) for x in e]
    return e.text
ms=conv(r[0])['messages']
def ch(s): return '['+', '.join(f"'{c}'" for c in s)+']'
o=['import Verif.Data.Chars\n\n/-! Generated by `tools/gen_xml.py` from the `messages` map of `message/data/message.xml`. -/\n\nnamespace Pyogp.Embedded\n']
o.append('/-- Name and flavor of every entry; `none`: no flavor key. -/\ndef messageXml : DotXml :=\n  ['+',\n   '.join(f'("{k}", '+(f'some "{v["flavor"]}"' if 'flavor' in v else 'none')+')' for k,v in ms.items())+']\n')
o.append('/-- The names without a flavor. -/\ndef flavorless : List (List Char) :=\n  ['+',\n   '.join(ch(k) for k,v in ms.items() if 'flavor' not in v)+']\n')
o.append('/-- Entries whose flavor is absent. -/\ntheorem flavorless_eq : (messageXml.filter (fun e => e.2.isNone)).map (·.1) = flavorless.map String.ofList := by kernel_rfl\n')
banned=[k for k,v in ms.items() if v.get('flavor','template')!='template']
o.append('/-- The names with a flavor other than `template`. -/\ndef bannedNames : List String := ['+', '.join(f'"{k}"' for k in banned)+']\n')
o.append('end Pyogp.Embedded\n')
open('/verif/lean/Verif/Data/MessageXml.lean','w').write('\n'.join(o))
