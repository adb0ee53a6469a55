import re,sys,json,collections
FILES=['object.rs','structure.rs','color.rs','forms.rs','attributes.rs','font.rs','annotations.rs','actions.rs','xobject.rs','renditions.rs','files.rs','transitions.rs','content.rs','functions.rs']
def methods():
    out=[]
    for f in FILES:
        L=open('/repo/src/'+f).read().split('\n')
        impl=None; doc=[]; i=0
        while i<len(L):
            l=L[i]
            m=re.match(r"impl(<[^>]*>)? (?:.* for )?([A-Za-z0-9]+)(<.*>)? (where.*)?\{?$",l)
            if re.match(r'impl\b',l):
                mm=re.match(r"impl(?:<[^>]*>)?\s+(.*?)\s*\{?$",l)
                h=mm.group(1)
                impl=h
            if l.strip().startswith('#[cfg(test)]'): break
            if re.match(r'\s*///',l): doc.append(l.strip()[3:].strip()); i+=1; continue
            if re.match(r'    pub (const )?fn ',l):
                j=i; sig=''
                while '{' not in L[j]: sig+=L[j].strip()+' '; j+=1
                sig+=L[j].strip()
                body=[]; k=j+1
                if L[j].rstrip().endswith('}') : end=j
                else:
                    while not re.match(r'    \}$',L[k]): body.append(L[k].strip()); k+=1
                    end=k
                out.append(dict(file=f,line=i+1,end=end+1,impl=impl,sig=sig,body=body,doc=' '.join(doc)))
                doc=[]; i=end+1; continue
            if not l.strip().startswith('#['): doc=[]
            i+=1
    return out
if __name__=='__main__':
    ms=methods()
    c=collections.Counter()
    for m in ms:
        b=' '.join(m['body'])
        b=re.sub(r'Name\(b"[^"]*"\)','K',b)
        print(m['file'],m['line'],m['impl'],'|',m['sig'],'|',b)
