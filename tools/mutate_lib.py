import re
def enclosing(path, line):
    name = None
    for i, l in enumerate(open(path), 1):
        m = re.match(r"(?:@\[[^\]]*\]\s*)?(?:private\s+|protected\s+)?(theorem|lemma|def|example|instance|abbrev|structure)\s*(\S*)", l)
        if m: name = (m.group(1) + "@" + str(i)) if m.group(1) in ("example", "instance") else m.group(2)
        if i >= line: break
    return name
