#!/usr/bin/env python3
"""Write lean/Verif/Tests/Golden*.lean from /repo/test_resources (tests of the model, not proofs)."""
import sys
R='/repo/test_resources/'
OUT='/verif/lean/Verif/Tests/'
def lit(s):
    return '"'+s.replace('\\','\\\\').replace('"','\\"').replace('\n','\\n').replace('\t','\\t').replace('\r','\\r')+'"'
def rd(p): return open(R+p,encoding='utf-8').read()
def module(name, imports, cases):
    out=['/- Generated by tools/golden.py: the model reproduces the golden files of /repo/test_resources. -/']
    out+=['import '+i for i in imports]
    out+=['namespace TPB.Tests','']
    srcs={}
    for (src,exp,expr) in cases:
        if src not in srcs:
            srcs[src]='src_'+src.replace('/','_').replace('.','_')
            out.append(f'private def {srcs[src]} : String := {lit(rd(src))}')
    out.append('')
    out.append('''private def run (src : String) (f : List ASTNode → Except Panic String) (expected : String) : Bool :=
  match parseSource src with
  | .error _ => false
  | .ok ast => match f ast with
    | .ok s => s == expected
    | .error _ => false
''')
    for (src,exp,expr) in cases:
        out.append(f'#guard run {srcs[src]} (fun ast => {expr})\n  {lit(rd(exp))}')
    out+=['','end TPB.Tests','']
    open(OUT+name+'.lean','w',encoding='utf-8').write('\n'.join(out))
rust=[
 ('empty.tpb','rust/empty.rs','RustGen.generate testExt ast true true true'),
 ('struct.tpb','rust/struct_models.rs','RustGen.models ast'),
 ('enum.tpb','rust/enum_models.rs','RustGen.models ast'),
 ('struct.tpb','rust/struct_buffers.rs','.ok (RustGen.buffers ast)'),
 ('enum.tpb','rust/enum_buffers.rs','.ok (RustGen.buffers ast)'),
 ('rpc_sync_methods.tpb','rust/rpc_sync_methods.rs','RustGen.rpc ast'),
 ('rpc_async_methods.tpb','rust/rpc_async_methods.rs','RustGen.rpc ast'),
 ('rpc_read_methods.tpb','rust/rpc_read_methods.rs','RustGen.rpc ast'),
 ('rpc_methods.tpb','rust/rpc_methods.rs','RustGen.rpc ast'),
 ('consts.tpb','rust/consts.rs','.ok (RustGen.consts testExt ast)'),
]
module('GoldenRust',['Verif.Model.Parser','Verif.Model.RustGen','Verif.Model.ToCase'],rust)
import os
def enable(name,imports,cases,need):
    if os.path.exists('/verif/lean/Verif/Model/'+need+'.lean'): module(name,imports,cases)
dart=[
 ('empty.tpb','dart/empty.dart','DartGen.generate testExt ast true true true'),
 ('struct.tpb','dart/struct_models.dart','DartGen.models testExt ast'),
 ('enum.tpb','dart/enum_models.dart','DartGen.models testExt ast'),
 ('struct.tpb','dart/struct_buffers.dart','DartGen.buffers testExt ast'),
 ('enum.tpb','dart/enum_buffers.dart','DartGen.buffers testExt ast'),
 ('rpc_sync_methods.tpb','dart/rpc_sync_methods.dart','DartGen.rpcMethods testExt ast'),
 ('rpc_async_methods.tpb','dart/rpc_async_methods.dart','DartGen.rpcMethods testExt ast'),
 ('rpc_read_methods.tpb','dart/rpc_read_methods.dart','DartGen.rpcMethods testExt ast'),
 ('consts.tpb','dart/consts.dart','.ok (DartGen.consts testExt ast)'),
 ('rpc_methods.tpb','dart/rpc_methods.dart','DartGen.rpcMethods testExt ast'),
]
enable('GoldenDart',['Verif.Model.Parser','Verif.Model.DartGen','Verif.Model.ToCase'],dart,'DartGen')

def mobile(lang,ext,gen,pairs):
    cases=[('consts.tpb',f'{lang}/consts.{ext}',f'{gen}.consts testExtF ast')]
    cases+=[(a+'.tpb',f'{lang}/{b}.{ext}',f'{gen}.models testExtF ast') for a,b in pairs]
    enable('Golden'+lang.capitalize(),['Verif.Model.Parser','Verif.Model.'+gen,'Verif.Model.ToCase'],cases,gen)
same=lambda l:[(a,a) for a in l.split()]
mobile('kotlin','kt','KotlinGen',same('struct_empty struct_basic struct_with_positions struct_generics enum_basic enum_with_positions enum_with_many_default_arguments enum_with_named_default_arguments enum_extended')+[('struct','struct_models')])
mobile('swift','swift','SwiftGen',same('struct_empty struct_basic struct_with_positions struct_generics')+[('struct','struct_models'),('enum_extended','enum_models')])
