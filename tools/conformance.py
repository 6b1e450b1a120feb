import re
SRC='/repo/'
out=[]
def lit(s): return 'b!"%s"'%s.replace('\\"','"').replace('"','\\"')
GRANTS={'AuthorizationCode':('typeAuthorizationCode','authorizationCode lib'),'Password':('typePassword','password'),'ClientCredentials':('typeClientCredentials','clientCredentials'),'RefreshToken':('typeRefreshToken','refreshToken'),'JWT':('typeJWT','jwt lib')}
def gt(x):
    x=x.strip()
    if x.startswith('"'): return lit(x[1:-1])
    return 'Grant.type'+x[len('grant.Type'):]
def val(x,env):
    x=x.strip()
    if x.startswith('"'): return lit(x[1:-1])
    if x.startswith('basic_auth.Header'):
        a,b=re.findall(r'"([^"]*)"',x); return '(BasicAuth.header %s %s)'%(lit(a),lit(b))
    return env[x]
def pmap(text,env):
    rows=re.findall(r'^\s*"([^"]+)":\s*(.+?),?$',text,re.M)
    return [(k,v) for k,v in rows]
def params(rows,env): return '['+', '.join('(%s, %s)'%(lit(k),val(v,env)) for k,v in rows)+']'
def time(x):
    m=re.match(r'time\.Now\(\)\.Unix\(\)( [+-] )?(.*)$',x.strip())
    if not m.group(1): return 'clock'
    return 'clock%s86400'%m.group(1)
def want(v):
    m=re.match(r'th\.NewStrMatcher\("(.*)"\)',v)
    if m: return '.str '+lit(m.group(1))
    m=re.match(r'th\.NewInt64Matcher\(60 \* 60 \* 24\)',v)
    if m: return '.int 86400'
    if 'Absent' in v: return '.absent'
    raise Exception(v)
def wantstr(v): 
    w=want(v); assert w.startswith('.str '); return w[5:]
def balanced(s,i,o='(',c=')'):
    d=0
    j=i
    instr=False
    while True:
        ch=s[j]
        if instr:
            if ch=='\\': j+=1
            elif ch=='"': instr=False
        elif ch=='"': instr=True
        elif ch==o: d+=1
        elif ch==c:
            d-=1
            if d==0: return j
        j+=1
def splitargs(s):
    r=[];d=0;cur='';instr=False;j=0
    while j<len(s):
        ch=s[j]
        if instr:
            cur+=ch
            if ch=='\\': j+=1; cur+=s[j]
            elif ch=='"': instr=False
        else:
            if ch=='"': instr=True
            if ch in '({[': d+=1
            if ch in ')}]': d-=1
            if ch==',' and d==0: r.append(cur.strip()); cur=''
            else: cur+=ch
        j+=1
    if cur.strip(): r.append(cur.strip())
    return r
def strip_comments(s): return re.sub(r'^\s*//.*$','',s,flags=re.M)
def doc(line,fn,name): return '/-- %s:%d `%s` -/'%(fn,line,name)
for fn in ['token_endpoint_test.go','token_endpoint_code_test.go','token_endpoint_refresh_test.go','token_endpoint_password_test.go','token_endpoint_client_test.go','token_endpoint_jwt_test.go','token_endpoint_assertion_test.go']:
    src=open(SRC+fn).read()
    for m in re.finditer(r'^func (Test\w+)\(t \*testing\.T\) \{\n(.*?)^\}',src,re.M|re.S):
        name,body=m.group(1),strip_comments(m.group(2))
        line=src[:m.start()].count('\n')+1
        if 'NonPost' in name: continue
        env={}; setup=[]; steps=[]; claims=[]; key=None
        pat=re.compile(r'te\.Support\(grant\.(\w+)\(\)\)|te\.AcceptClientSecret\((\w+)\)|te\.AcceptClientAssertion\((\w+)\)|te\.SetErrorURI\("([^"]*)"\)|(te\.SetErrorURIBuilder)\(|sdi\.CreateNewUser\("(\w+)", "(\w+)"\)|sdi\.CreateNewClient\(\w+\.Id, "([^"]*)", "([^"]*)", "([^"]*)"\)|client\.AllowToUseGrantType\(([^)]*)\)|sdi\.CreateOrUpdateAuthInfo\(user\.Id, client\.GetId\(\), "([^"]*)"\)|(sdi\.CreateAuthSession)\(|(\w+) := "([^"]*)"\n|key :?= (.*)\n|(jwt\.New\(|jwt\.MapClaims\{)|claims\["(\w+)"\] = (.*)\n|^\t\t"(aud|iss|sub|exp)": (.*),\n|(token\.SignedString)\(key\)|th\.(TokenEndpoint\w+Test)(?=\()',re.M)
        pos=0
        while True:
            k=pat.search(body,pos)
            if not k: break
            pos=k.end()
            g=k.groups()
            (sup,acs,aca,uri,bld,u,pw,cid,sec,ruri,alw,scope,sess,vn,vv,keyv,newj,cn,cv,mk,mv,sign,test)=g
            if sup: steps.append('.config (.support Grant.%s (Grant.%s))'%GRANTS[sup])
            elif acs: steps.append('.config (.acceptClientSecret .%s)'%(acs[0].lower()+acs[1:]))
            elif aca: steps.append('.config (.acceptClientAssertion %s)'%aca)
            elif uri: steps.append('.config (.setErrorURI %s)'%lit(uri))
            elif bld: steps.append('.config (.setErrorURIBuilder (some fun e => b!"http://example.org/error#" ++ OAuthErrorType.string e))')
            elif u: setup.append('.createUser %s %s'%(lit(u),lit(pw)))
            elif cid: setup.append('.createClient 0 %s %s %s'%(lit(cid),lit(sec),lit(ruri)))
            elif alw: setup.append('.allow 0 %s'%gt(alw))
            elif scope is not None: steps.append('.authInfo 0 b!"client_id_01" %s'%lit(scope))
            elif sess:
                e=balanced(body,pos-1); t=body[pos:e]; pos=e
                f=dict(re.findall(r'(\w+):\s*(.+?),$',t,re.M))
                cvr=val(f['CodeVerifier'],env)
                assert f['ExpiresIn']=='int64(60 * 60 * 24)'
                steps.append('.session { redirectURI := %s, code := %s, codeVerifier := %s, expiresIn := 86400, nonce := %s, authTime := clock }'%(val(f['RedirectURI'],env),val(f['Code'],env),cvr,val(f['Nonce'],env)))
            elif vn: env[vn]=lit(vv)
            elif keyv: key = 'b!"client_secret_01"' if 'GetAssertionKey' in keyv else lit(re.search(r'"(\w+)"',keyv).group(1))
            elif newj:
                if 'MapClaims{' in newj or not body[pos-30:pos].count('NewWith'): claims=[]
            elif cn: claims.append((cn,cv))
            elif mk: claims.append((mk,mv))
            elif sign:
                env['assertion']='(Jws.sign Crypto.prims b!"HS256" [] [%s] %s)'%(', '.join('(%s, %s)'%(lit(a), '.str '+val(b,env) if b.strip().startswith('"') else '.float (%s)'%time(b)) for a,b in claims),key)
            elif test:
                e=balanced(body,pos); args=splitargs(body[pos+1:e]); pos=e
                assert args[:2]==['t','ts'],args
                def mp(a): return pmap(a,env)
                values=params(mp(args[2]),env); hdrs=params(mp(args[3]),env); code=args[4]
                rh='['+', '.join('(%s, %s)'%(lit(a),wantstr(b)) for a,b in mp(args[5]))+']'
                bw='['+', '.join('(%s, %s)'%(lit(a),want(b)) for a,b in mp(args[6]))+']'
                idt='none'
                if len(args)>7 and args[7]!='nil': idt='(some ['+', '.join('(%s, %s)'%(lit(a),wantstr(b)) for a,b in mp(args[7]))+'])'
                steps.append('.request %s\n      %s %s\n      %s\n      %s %s'%(values,hdrs,code,rh,bw,idt))
        out.append((fn,'%s\nexample : tokenTest\n    [%s]\n    [%s] = true := by\n  decide +kernel\n'%(doc(line,fn,name),',\n     '.join(setup),',\n     '.join(steps))))
by={}
for fn,t in out: by.setdefault(fn,[]).append(t)
import collections
groups=collections.OrderedDict([('TokenEndpoint',['token_endpoint_test.go','token_endpoint_refresh_test.go','token_endpoint_password_test.go','token_endpoint_client_test.go']),('Code',['token_endpoint_code_test.go']),('Assertions',['token_endpoint_jwt_test.go','token_endpoint_assertion_test.go'])])
for g,fs in groups.items():
    with open('/verif/lean/Verif/Conformance/%s.lean'%g,'w') as f:
        f.write('import Verif.Conformance.Harness\n\n/-! # The tests of %s, replayed -/\n\nnamespace Goidc.Conformance\n\n'%', '.join(fs))
        for fn in fs: f.write('\n'.join(by[fn])+'\n')
        f.write('end Goidc.Conformance\n')
