import re,glob,os,subprocess
allf=subprocess.run("find /repo -type f \\( -name '*.hpp' -o -name '*.cpp' -o -name '*.cu' -o -name '*.inc' -o -name '*.h' -o -name '*.cuh' \\)",shell=True,capture_output=True,text=True).stdout.split()
cache={}
def src(f):
    c=[os.path.join('/repo',f),os.path.join('/repo/include',f)]
    for p in c:
        if os.path.exists(p):
            if p not in cache: cache[p]=open(p,errors='replace').read().split('\n')
            return cache[p]
    return None
bad=0; tot=0
for lf in sorted(glob.glob('Verif/**/*.lean',recursive=True)):
    for ln,l in enumerate(open(lf),1):
        for m in re.finditer(r'([\w./]+\.(?:hpp|cpp|cu|inc|cuh|h)):((?:\s*(?:and |, |,|\(and )?\d+(?:[-–]\d+)?)+)',l):
            f,rs=m.groups(); s=src(f)
            if s is None: print(f'{lf}:{ln}: no file {f}'); bad+=1; continue
            for a,b in re.findall(r'(\d+)(?:[-–](\d+))?',rs):
                a=int(a); b=int(b or a); tot+=1
                if b>len(s) or a>b: print(f'{lf}:{ln}: {f}:{a}-{b} outside ({len(s)})'); bad+=1
                elif s[a-1].strip() in ('','}','};'): print(f'{lf}:{ln}: {f}:{a}-{b} starts at {s[a-1].strip()!r}'); bad+=1
print(tot,'citations',bad,'suspicious')
