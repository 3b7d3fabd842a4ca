import json
R='/repo/idls/'
W={'u8':1,'u16':2,'u32':4,'u64':8}
def num(t):
    assert t['kind']=='numberTypeNode' and t['endian']=='le'
    return W[t['format']]
def b(x): return 'true' if x else 'false'
def ty(t):
    k=t['kind']
    if k=='numberTypeNode': return f".num {num(t)}"
    if k=='definedTypeLinkNode':
        if 'importFrom' in t: return f'.hooked "{t["name"]}"'
        return f'.link "{t["name"]}"'
    if k=='optionTypeNode':
        assert not t['fixed']
        return f".option {num(t['prefix'])} ({ty(t['item'])})"
    if k=='arrayTypeNode':
        c=t['count']
        if c['kind']=='prefixedCountNode': c=f".counted {num(c['prefix'])}"
        elif c['kind']=='remainderCountNode': c='.rest'
        else: c=f".exactly {c['value']}"
        return f".array ({c}) ({ty(t['item'])})"
    if k=='sizePrefixTypeNode': return f".sized {num(t['prefix'])} ({ty(t['type'])})"
    if k=='fixedSizeTypeNode': return f".padded {t['size']} ({ty(t['type'])})"
    if k=='stringTypeNode':
        assert t['encoding']=='utf8'; return '.string'
    if k=='bytesTypeNode': return '.bytes'
    if k=='booleanTypeNode': return f".bool {num(t['size'])}"
    if k=='publicKeyTypeNode': return '.publicKey'
    if k=='structTypeNode': return '.struct ['+', '.join(f'("{f["name"]}", {ty(f["type"])})' for f in t['fields'])+']'
    if k=='enumTypeNode':
        vs=[]
        for v in t['variants']:
            if v['kind']=='enumEmptyVariantTypeNode': vs.append(f'("{v["name"]}", none)')
            else:
                assert v['kind']=='enumStructVariantTypeNode'
                vs.append(f'("{v["name"]}", some ({ty(v["struct"])}))')
        return f".enum {num(t['size'])} ["+', '.join(vs)+']'
    raise Exception(k)
def val(v):
    k=v['kind']
    if k=='numberValueNode': return f".num {v['number']}"
    if k=='booleanValueNode': return f".bool {b(v['boolean'])}"
    if k=='noneValueNode': return ".absent"
    if k=='enumValueNode': return f'.variant "{v["variant"]}" none'
    raise Exception(k)
def dflt(v):
    if v is None: return 'none'
    k=v['kind']
    if k=='identityValueNode': return 'some .identity'
    if k=='payerValueNode': return 'some .payer'
    if k=='publicKeyValueNode':
        assert v['publicKey']=='1'*32; return 'some .system'
    if k=='conditionalValueNode':
        assert v['ifTrue']['publicKey']=='1'*32 and 'ifFalse' not in v
        return f'some (.systemIf "{v["condition"]["name"]}")'
    raise Exception(k)
def sg(s): return '.either' if s=='either' else '.yes' if s else '.no'
def wrap(s,ind,width=98):
    # break a comma separated list at top-level commas
    if len(s)+ind<=width: return s
    out=[];cur='';
    parts=s.split(', ')
    for i,p in enumerate(parts):
        q=p+(', ' if i<len(parts)-1 else '')
        if len(cur)+len(q.rstrip())+ind>width: out.append(cur.rstrip()); cur=' '*2+q
        else: cur+=q
    out.append(cur)
    return ('\n'+' '*ind).join(out)
d=json.load(open(R+'asset-program.codama.json')); p=d['program']
o=[]
o.append('''import Verif.Model.Codama

/-!
# The descriptions of the programs

The contents of idls/*.json as data: names, numbers, flags and types, without comments. Written by a
script from the files, so that nothing is retyped by hand.
-/

namespace Verif

/-! ## idls/asset-program.codama.json (one line), the description that is put into the binary -/

/-- `program.definedTypes`. -/
def codamaTypes : List (String × NodeType) :=
  [''')
o[-1]+=',\n    '.join(wrap(f'("{t["name"]}", {ty(t["type"])})',4) for t in p['definedTypes'])+']\n'
a=p['accounts'][0]; assert len(p['accounts'])==1
o.append(f'''/-- `program.accounts`: the only one, `{a["name"]}`. -/
def codamaAccount : NodeType :=
  {wrap(ty(a["data"]),2)}
''')
names=[]
for i in p['instructions']:
    assert i['optionalAccountStrategy']=='programId'
    assert i['discriminators']==[{'kind':'fieldDiscriminatorNode','name':'discriminator','offset':0}]
    n='codama'+i['name'][0].upper()+i['name'][1:]; names.append((i['name'],n))
    acc=[f'⟨"{x["name"]}", {b(x["isWritable"])}, {sg(x["isSigner"])}, {b(x["isOptional"])}, {dflt(x.get("defaultValue"))}⟩' for x in i['accounts']]
    args=[]
    for x in i['arguments']:
        st=x.get('defaultValueStrategy'); dv=x.get('defaultValue')
        assert st in (None,'omitted','optional')
        args.append(f'⟨"{x["name"]}", {ty(x["type"])}, {"some ("+val(dv)+")" if dv else "none"}, {b(st=="omitted")}⟩')
    o.append(f'''/-- `{i["name"]}`. -/
def {n} : InstrNode where
  accounts := [{(","+chr(10)+"    ").join(acc)}]
  args := [{(","+chr(10)+"    ").join(wrap(s,4) for s in args)}]
''')
o.append('/-- `program.instructions`. -/\ndef codamaInstructions : List (String × InstrNode) :=\n  ['+wrap(', '.join(f'("{x}", {y})' for x,y in names),2)+']\n')
def lc(s): return s[0].lower()+s[1:]
def sty(t):
    if isinstance(t,str): return {'u8':'.num 1','u16':'.num 2','u32':'.num 4','u64':'.num 8','bool':'.bool 1','string':'.sized 4 (.string)','bytes':'.sized 4 (.bytes)'}[t]
    if 'defined' in t: return f'.link "{t["defined"]}"'
    if 'option' in t: return f".option 1 ({sty(t['option'])})"
    if 'vec' in t: return f".array (.counted 4) ({sty(t['vec'])})"
    raise Exception(t)
def sdef(t):
    t=t['type']
    def st(fs): return '.struct ['+', '.join(f'("{f["name"]}", {sty(f["type"])})' for f in fs)+']'
    if t['kind']=='struct': return st(t['fields'])
    return '.enum 1 ['+', '.join(f'("{v["name"]}", '+('none' if 'fields' not in v else f'some ({st(v["fields"])})')+')' for v in t['variants'])+']'
for f,pre in (('asset_program','shankAsset'),('nifty_asset_interface','shankInterface'),('bridge_program','shankBridge'),('proxy_program','shankProxy')):
    d=json.load(open(R+f+'.json')); lines=open(R+f+'.json').read().split('\n')
    ln=lambda s:next(k+1 for k,l in enumerate(lines) if l.startswith('  "'+s+'"'))
    keys=[k for k in d]
    def rng(s):
        a=ln(s); nxt=[ln(k) for k in keys if ln(k)>a]; return f"{a}-{(min(nxt)-1) if nxt else len(lines)}"
    o.append(f'''/-! ## idls/{f}.json -/

/-- `types` — {f}.json:{rng("types")}. -/
def {pre}Types : List (String × NodeType) :=
  ['''+',\n    '.join(wrap(f'("{t["name"]}", {sdef(t)})',4) for t in d['types'])+']\n')
    rows=[]
    for i in d['instructions']:
        assert i['discriminant']['type']=='u8'
        for x in i['accounts']: assert set(x)<={'name','isMut','isSigner','isOptional','docs','desc','isOptionalSigner'},x
        acc=', '.join(f'⟨"{x["name"]}", {b(x["isMut"])}, {sg(x["isSigner"])}, {b(x.get("isOptional",False))}, none⟩' for x in i['accounts'])
        args=[f'⟨"discriminator", .num 1, some (.num {i["discriminant"]["value"]}), true⟩']+[f'⟨"{x["name"]}", {sty(x["type"])}, none, false⟩' for x in i['args']]
        rows.append(f'("{i["name"]}",\n      {{ accounts := ['+wrap(acc,22).replace('\n'+' '*22,'\n          ')+'],\n        args := ['+', '.join(args)+'] })')
    o.append(f'''/-- `instructions` — {f}.json:{rng("instructions")}. -/
def {pre}Instructions : List (String × InstrNode) :=
  ['''+',\n    '.join(rows)+']\n')
o.append('end Verif\n')
open('/verif/lean/Verif/Model/IdlFiles.lean','w').write('\n'.join(o))
