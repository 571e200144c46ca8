"""Digests of the trees recorded in /repo/bglib/image/resource/<style>/test/*.xml, as in lean/Verif/Check/Trees."""
import os,re,sys
import xml.etree.ElementTree as ET
R='/repo/bglib/image/resource/'
src=open('/repo/bglib/image/testwriter.py').read()
tests=re.findall(r"""'(\w+)':\(\s*["']([A-Za-z0-9+/]{14})["'],\s*["']([A-Za-z0-9+/]{12})["']\)""",src)
P=2**255-19
def norm(v): return re.sub(r'^.*bglib/image/resource/','bglib/image/resource/',v)
def canon(e):
    s='<'+e.tag
    for k in sorted(e.attrib): s+=' '+k+'='+norm(e.attrib[k])
    s+='>'
    t=(e.text or '')
    for c in e: t+='\n'+(c.tail or '')
    for x in t.split('\n'):
        if x.strip(): s+=x.strip()
    for c in e: s+=canon(c)
    return s+'/'
def digest(s):
    a=0
    for ch in s: a=(a*256+ord(ch))%P
    return a
out={}
for st in ['deutsche','flower','kotobuki','minimal','nature','neon']:
    out[st]=[]
    for k,p,m in tests:
        f=R+st+'/test/'+k+'.xml'
        if os.path.exists(f): out[st].append((k,p,m,digest(canon(ET.parse(f).getroot()))))
if __name__=='__main__':
    for st in out:
        for k,p,m,d in out[st]: print(st,k,p,m,hex(d))
