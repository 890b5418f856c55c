from cert import *
# refined grammar
lev=['cond','is','or','and','cmp','bor','bxor','band','shift','add','mul','un']
ops={'is':[116],'or':[109],'and':[110],'cmp':[101,102,103,104,105,106,107,108],'bor':[111],'bxor':[113],'band':[112],'shift':[114,115],'add':[99,100],'mul':[95,96,97,98]}
prods=[];base={}
def add(l,b,r,rhs): base[l]=b; prods.append((l,r,rhs))
sub={}  # per rule overrides
def refine(over):
    for k,(l,rhs) in enumerate(rules,1):
        if l=='test' : continue
        if k in over:
            for (l2,rhs2) in over[k]: add(l2,l,k,rhs2)
        else:
            add(l,l,k,['cond' if x=='test' else x for x in rhs])
def tests():
    T='test'
    add('cond',T,0,['cond_c']); add('cond',T,0,['cond_o'])
    for m in 'co':
        add('cond_'+m,T,117,['cond_c','_IF','cond','_ELSE','is_'+m]); add('cond_'+m,T,0,['is_'+m])
        for a,b in zip(lev[1:-1],lev[2:]):
            for r in ops[a]:
                mid=rules[r-1][1][1:-1]
                add(a+'_'+m,T,r,[a+'_c']+mid+[b+'_'+m])
            add(a+'_'+m,T,0,[b+'_'+m])
        for r in (91,92,93,94): add('un_'+m,T,r,[rules[r-1][1][0],'un_'+m])
    add('un_c',T,89,['primary_expr'])
    add('un_o',T,90,['_LAMBDA','parameters_opt',"':'",'lambda_body'])
    add('lambda_body','expr',85,['cond'])
    add('is',T,0,['is_c']); add('is',T,0,['is_o'])
def report(c,e):
    g={}
    for k,a in e.items():
        if k[0]=='shift': g.setdefault(('shift',k[2],k[3]),[]).append((k[1],a))
        else: g.setdefault(('red',k[2]),{}).setdefault((names[k[3]-1]),[]).append((k[1],a))
    for k,v in sorted(g.items(),key=str):
        print(k,c.P[k[1]], {t:(len(x),x[0]) for t,x in v.items()} if k[0]=='red' else v[:8])
    print(len(e),'errors; items',sum(len(x) for x in c.items), 'max',max(len(x) for x in c.items),'prods',len(c.P))

def build():
    NL="'\\n'"
    over={86:[('expr',['expr',"','",'is'])],
     # numbers
     140:[('number',rules[139][1])],141:[('number',rules[140][1])],142:[('number',rules[141][1])],143:[('number_int',['_INT'])],
     41:[('primary',['number']),('primary_int',['number_int'])],
     # clauses
     144:[('for_clause_'+m,['_FOR','loop_vars','_IN','is_'+m]) for m in 'co'],
     145:[('fci_'+m,['for_clause_'+m]) for m in 'co'],
     146:[('fci_'+m,['fci_c','_IF','is_'+m]) for m in 'co'],
     147:[('for_clauses_with_if_clauses_opt',['fci_'+m]) for m in 'co'],
     148:[('for_clauses_with_if_clauses_opt',['for_clauses_with_if_clauses_opt','fci_'+m]) for m in 'co'],
     # statements
     2:[('suite_b',[NL,'comments','_INDENT','stmts','_UNINDENT'])],
     3:[('suite_l',['simple_stmt','linebreaks_opt'])],
     9:[('stmts_b',[])],
     10:[('stmts_'+m,['stmts','stmt_'+m]) for m in 'bl'],
     11:[('stmts_b',['stmts_b',NL])],
     12:[('stmts_b',['stmts','_COMMENT',NL])],
     13:[('stmt_b',['simple_stmt'])],
     14:[('stmt_'+m,['block_stmt_'+m]) for m in 'bl'],
     18:[('block_stmt_'+m,['def_header_type_opt',"':'",'suite_'+m]) for m in 'bl'],
     19:[('block_stmt_'+m,['_FOR','loop_vars','_IN','expr',"':'",'suite_'+m]) for m in 'bl'],
     20:[('block_stmt_'+m,['if_else_block_'+m]) for m in 'bl'],
     21:[('if_chain_'+m,['_IF','expr',"':'",'suite_'+m]) for m in 'bl'],
     22:[('if_chain_'+m,['if_chain','elif','expr',"':'",'suite_'+m]) for m in 'bl'],
     23:[('if_else_block_'+m,['if_chain_'+m]) for m in 'bl'],
     24:[('if_else_block_'+m,['if_chain','_ELSE',"':'",'suite_'+m]) for m in 'bl'],
    }
    for k in (40,42,43,44,45,46,47,48,49,50,51,52,53,54):
        l,rhs=rules[k-1]
        over[k]=[('primary',['primary' if x=='primary_expr' and k==43 else 'cond' if x=='test' else x for x in rhs])]
    refine(over); tests()
    add('primary_expr','primary_expr',0,['primary']); add('primary_expr','primary_expr',0,['primary_int'])
    add('stmts','stmts',0,['stmts_b']); add('stmts','stmts',0,['stmts_l'])
    add('if_chain','if_chain',0,['if_chain_b']); add('if_chain','if_chain',0,['if_chain_l'])
    return Cert(prods,base,'file')
if __name__=='__main__':
    c=build(); e=c.run(); report(c,e)
