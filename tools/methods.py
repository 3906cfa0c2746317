"""Translate what tools/translate.py leaves out: the methods of src/font.rs, src/file.rs, src/lib.rs and src/table.rs, the
methods `get` and `iter`, and the enumerations of features, scripts and languages.

It is run by translate.py. The meaning of the methods of iterators and options is given in
lean/Verif/Proof/Translation.lean. A method that can panic gives an `Except Err`, an item of a lazy iterator that can panic
is one, and a method with a tape is a `Reader`. References are the values they refer to. A tag is its four bytes, which are
a number.
"""
import os
import re

from rust import Failure, Node, Parser, expand, tokenize

# The methods: file, type, name, signature in Lean, monad, type parameter standing for a table, definition of the model.
METHODS = [
    ('layout/script.rs', 'Scripts', 'get', 'script', 'Methods',
     '(self : script.Scripts) (tag : Tag) : Except Err (Option script.Record)'),
    ('layout/script.rs', 'Record', 'get', 'script', 'Methods',
     '(self : script.Record) (tag : Tag) : Except Err (Option language.Record)'),
    ('layout/feature.rs', 'Features', 'get', 'feature', 'Methods',
     '(self : feature.Features) (tag : Tag) : Except Err (Option feature.Record)'),
    ('tables/color_palettes.rs', 'ColorPalettes', 'iter', 'cpal', 'Methods',
     '(cfg : Cfg) (self : cpal.ColorPalettes) : List (List (Except Err cpal.Color))'),
    ('lib.rs', None, 'accept', None, 'Font', '(truetypeAccept : Tag → Bool) (tag : Tag) : Bool'),
    ('font.rs', 'Font', 'read', None, 'Font', '(accept : Tag → Bool) : Reader Font'),
    ('font.rs', 'Font', 'exists', None, 'Font', '(self : Font) (table : TableType) : Bool'),
    ('font.rs', 'Font', 'position', None, 'Font',
     '(cfg : Cfg) (checksum : Record → Reader Nat) (self : Font) (table : TableType) : Reader (Option Unit)'),
    ('font.rs', 'Font', 'take', None, 'Font',
     '{α : Type} (cfg : Cfg) (checksum : Record → Reader Nat) (self : Font) (table : TableType) (r : Reader α) :\n'
     '    Reader (Option α)'),
    ('font.rs', 'Font', 'take_given', None, 'Font',
     '{α P : Type} (cfg : Cfg) (checksum : Record → Reader Nat) (self : Font) (table : TableType) (r : P → Reader α)\n'
     '    (parameter : P) : Reader (Option α)'),
    ('file.rs', 'File', 'read', None, 'Font', '(accept : Tag → Bool) : Reader File'),
]
FEATURES = {'ignore-invalid-checksums': 'ignoreInvalidChecksums', 'default-language': 'defaultLanguage'}
PROOFS = {
    'script.Scripts.get': 'by\n  funext self tag\n  exact found_eq _ _ _ _',
    'script.Record.get': 'by\n  funext self tag\n  exact found_eq _ _ _ _',
    'feature.Features.get': 'by\n  funext self tag\n  exact found_eq _ _ _ _',
    'cpal.ColorPalettes.iter': 'by\n  funext cfg self\n  unfold ColorPalettes.iter OpenType.cpal.ColorPalettes.iter\n'
    '  cases self.header <;> simp only [entry_eq]',
    'Font.exists': 'by\n  funext self table\n  exact any_eq _ _',
    'Font.position': 'by\n  funext cfg checksum self table\n  exact loop_eq _ _ _ _',
    'Font.take': 'by\n  funext α cfg checksum self table r\n  unfold Font.take OpenType.Font.take\n'
    '  rw [Font.position_eq]\n  congr 1\n  funext x\n  cases x <;> rfl',
    'Font.take_given': 'by\n  funext α P cfg checksum self table r parameter\n'
    '  unfold Font.take_given OpenType.Font.take_given\n  rw [Font.position_eq]\n  congr 1\n  funext x\n  cases x <;> rfl',
    'accept': 'by\n  funext f tag\n  exact accepts_eq _ _ _',
}


class Function:
    def __init__(self, name, begin, end, generics, arguments, body):
        self.name, self.begin, self.end = name, begin, end
        self.generics, self.arguments, self.body = generics, arguments, body


def functions(tokens):
    """The functions of the body of an implementation."""
    parser, found = Parser(tokens), []
    while parser.peek().kind != 'end':
        begin = parser.peek().line
        while parser.eat('#'):
            parser.tree()
        parser.eat('pub')
        found.append(function(parser, begin))
    return found


def function(parser, begin):
    parser.want('fn')
    name, generics = parser.ident(), []
    if parser.eat('<'):
        depth = 1
        while depth:
            token = parser.next()
            depth += {'<': 1, '>': -1, '>>': -2}.get(token.text, 0)
            if depth == 1 and token.kind == 'ident' and parser.peek().text in ':,>':
                generics.append(token.text)
    arguments = [token.text for token in parser.tree()]
    while not parser.sees('{'):
        parser.next()
    body = parser.block()
    return Function(name, begin, parser.tokens[parser.at - 1].line, generics, arguments, body)


def items(tokens):
    """The functions of a file with the types they belong to, the structures, and the macros."""
    parser, found, structures, invocations = Parser(tokens), [], {}, []
    while parser.peek().kind != 'end':
        begin = parser.peek().line
        while parser.eat('#'):
            parser.tree()
        parser.eat('pub')
        if parser.sees('macro_rules', '!'):
            parser.rules()
            parser.eat(';')
        elif parser.sees('fn'):
            found.append((None, None, function(parser, begin)))
        elif parser.eat('impl'):
            if parser.sees('<'):
                parser.next()
                depth = 1
                while depth:
                    depth += {'<': 1, '>': -1, '>>': -2}.get(parser.next().text, 0)
            head, trait = parser.type(), None
            if parser.eat('for'):
                head, trait = parser.type(), head
            while not parser.sees('{'):
                parser.next()
            body = parser.tree()
            if trait is None or head[1][-1] == 'Font' or trait[1][-1] in ('Table', 'From'):
                found += [(head[1][-1], trait, inner) for inner in functions(body)]
        elif parser.eat('struct') or parser.eat('enum'):
            name = parser.ident()
            while not parser.sees('{'):
                parser.next()
            structures[name] = parser.tree()
        elif parser.sees('use') or parser.sees('mod') or parser.sees('extern') or parser.sees('type'):
            while not (parser.sees(';') or parser.sees('{')):
                if parser.next().text == '::' and parser.sees('{'):
                    parser.tree()
            if not parser.eat(';'):
                parser.tree()
        elif parser.eat('trait'):
            parser.ident()
            parser.tree()
        elif parser.peek(1).text == '!':
            name = parser.ident()
            parser.next()
            line = parser.peek().line
            tree = parser.tree()
            invocations.append((name, begin, parser.tokens[parser.at - 1].line, tree))
            if name in parser.macros:
                inner = items(expand(parser.macros[name], tree, line))
                found += inner[0]
                structures.update(inner[1])
        else:
            raise Failure(f'line {begin}: an unknown item at {parser.peek()!r}')
    return found, structures, invocations


def quote(token):
    """A byte string of four bytes as a tag."""
    text = eval(token).decode()
    if len(text) != 4:
        raise Failure(f'{token} is no tag')
    return f"(tag4 {' '.join(repr(c) for c in text)})"


class Method:
    """The translation of one method. A value is translated to a term, after adding to `steps` what is to be run before."""

    def __init__(self, function, kind):
        self.function, self.kind, self.count = function, kind, 0

    def fresh(self):
        self.count += 1
        return f't{self.count}'

    def pure(self, node):
        steps = []
        value = self.value(node, steps)
        if steps:
            raise Failure(f'line {node.line}: a value that needs steps')
        return value

    def bind(self, steps, term):
        name = self.fresh()
        steps.append(f'let {name} ← {term}')
        return name

    def value(self, node, steps):
        return getattr(self, 'on_' + node.kind)(node, steps)

    def on_path(self, node, steps):
        if node.path == ['None']:
            return 'none'
        if len(node.path) > 1:
            raise Failure(f'line {node.line}: an unknown name {node.path}')
        return node.path[0]

    def on_number(self, node, steps):
        return str(node.value)

    def on_byte(self, node, steps):
        return quote(node.value)

    def on_tuple(self, node, steps):
        return f'({", ".join(self.value(item, steps) for item in node.items)})'

    def on_unary(self, node, steps):
        if node.op not in '&*':
            raise Failure(f'line {node.line}: an unknown operator {node.op}')
        return self.value(node.inner, steps)

    def on_field(self, node, steps):
        inner = self.value(node.inner, steps)
        return inner if node.name == '0' else f'{inner}.{node.name}'

    def on_index(self, node, steps):
        return self.bind(steps, f'indexed {self.value(node.inner, steps)} {self.value(node.index, steps)}')

    def on_cast(self, node, steps):
        if node.to[1] not in (['usize'], ['u64']):
            raise Failure(f'line {node.line}: a cast to {node.to}')
        return self.value(node.inner, steps)

    def on_binary(self, node, steps):
        left, right = self.value(node.left, steps), None
        if node.op in ('||', '&&'):
            return f'({left} {node.op} {self.pure(node.right)})'
        right = self.value(node.right, steps)
        if node.op in ('==', '!=', '<', '>', '<=', '>='):
            sign = {'==': '=', '!=': '≠', '<=': '≤', '>=': '≥'}.get(node.op, node.op)
            return f'({left} {sign} {right})'
        if node.op == '+':
            return self.bind(steps, f'addIndex {left} {right}')
        raise Failure(f'line {node.line}: an unknown operator {node.op}')

    def on_try(self, node, steps):
        return self.bind(steps, self.term(node.inner))

    def on_match(self, node, steps):
        arms = []
        for pattern, body in node.arms:
            arms.append(f'    | {self.pattern(pattern)} => {self.pure(body)}')
        return f'match {self.pure(node.value)} with\n' + '\n'.join(arms)

    def on_struct(self, node, steps):
        fields = [f'{name} := {self.value(value, steps)}' for name, value in node.fields]
        return f'{{ {", ".join(fields)} }}'

    def on_macro(self, node, steps):
        if node.name == 'vec':
            return f'[{", ".join(self.value(item, steps) for item in node.items)}]'
        if node.name == 'matches':
            if node.items[1].kind != 'byte':
                raise Failure(f'line {node.line}: an unknown pattern')
            return f'({self.pure(node.items[0])} = {self.pure(node.items[1])})'
        raise Failure(f'line {node.line}: an unknown macro {node.name}')

    def on_range(self, node, steps):
        if node.start.kind != 'number' or node.start.value != 0:
            raise Failure(f'line {node.line}: a range that does not start at zero')
        return f'(List.range {self.pure(node.end)})'

    def on_call(self, node, steps):
        if node.path == ['Some']:
            return f'(some {self.value(node.items[0], steps)})'
        if node.path[0] in self.function.generics and node.path[1:] == ['tag'] and not node.items:
            return 'table.tag'
        if node.path == ['truetype', 'accept']:
            return f'(truetypeAccept {self.pure(node.items[0])})'
        raise Failure(f'line {node.line}: an unknown function {node.path}')

    def closure(self, node, inside=None):
        """A closure, whose body may need steps."""
        steps = []
        body = self.block(node.body, steps) if node.body.kind == 'block' else self.value(node.body, steps)
        (pattern,) = node.patterns
        head = f'fun {self.pattern(pattern)} =>'
        if not steps:
            return f'({head} {body})', False
        last = steps[-1].split(' ← ', 1)
        if last[0] == f'let {body}':  # `let x ← e; return x` is `e`.
            steps[-1] = last[1]
        else:
            steps.append(f'pure {body}')
        return f'({head} do\n' + '\n'.join('      ' + line for step in steps for line in step.split('\n')) + ')', True

    def block(self, node, steps):
        for item in node.items:
            self.simple(item, steps)
        return self.value(node.tail, steps)

    def simple(self, item, steps):
        if item.condition:
            raise Failure(f'line {item.line}: a conditional statement')
        if item.kind == 'let' and item.pattern.kind == 'bind' and item.value.kind == 'method' \
                and item.value.name == 'into' and item.value.inner.kind == 'path':
            # The conversion of a tag, a script, a language or a feature into a tag.
            steps.append(f'let {item.pattern.name} := {self.value(item.value.inner, steps)}')
        elif item.kind == 'let':
            value = self.value(item.value, steps)
            pattern = self.pattern(item.pattern)
            last = steps[-1].split(' ← ', 1) if steps else ['']
            if last[0] == f'let {value}':
                steps[-1] = f'let {pattern} ← {last[1]}'
            else:
                steps.append(f'let {pattern} := {value}' if '\n' not in value else f'let {pattern} :=\n    {value}')
        elif item.kind == 'do' and item.value.kind == 'macro' and item.value.name == 'debug_assert':
            (condition,) = item.value.items
            steps.append(f'debugAssert cfg {self.pure(condition)} "assertion failed: {item.value.text}"')
        else:
            raise Failure(f'line {item.line}: an unknown statement {item.kind}')

    def on_method(self, node, steps):
        name, inner = node.name, node.inner
        if name == 'iter' and not node.items:
            return self.value(inner, steps)
        if name == 'enumerate' and not node.items:
            return f'(enumerate {self.value(inner, steps)})'
        if name in ('find', 'any'):
            value = self.value(inner, steps)
            closure, effects = self.closure(node.items[0])
            if effects:
                raise Failure(f'line {node.line}: {name} with effects')
            return f'({value}.{"find?" if name == "find" else name} {closure})'
        if name == 'map':
            value = self.value(inner, steps)
            closure, effects = self.closure(node.items[0])
            if inner.kind == 'range' or inner.name == 'iter':
                return f'({value}.map {closure})'  # A lazy iterator: a list of what each item gives.
            if inner.name == 'find':
                return self.bind(steps, f'mapOption {closure} {value}') if effects else f'({value}.map {closure})'
        raise Failure(f'line {node.line}: an unknown method {name}')

    def pattern(self, node):
        if node.kind == 'any':
            return '_'
        if node.kind == 'bind':
            return node.name
        if node.kind == 'tuple':
            return f'({", ".join(map(self.pattern, node.items))})'
        if node.kind == 'variant' and len(node.path) == 2:
            name = node.path[1]
            return ' '.join([f'.{name[0].lower()}{name[1:]}'] + [self.pattern(item) for item in node.items])
        raise Failure(f'line {node.line}: an unknown pattern {node.kind}')

    # Readers

    def term(self, node):
        """A result as a reader."""
        tape = Node('path', node.line, path=['tape'], types=None)

        def is_tape(item):
            return item.kind == 'path' and item.path == ['tape']
        if node.kind == 'call' and node.path == ['Ok']:
            steps = []
            value = self.value(node.items[0], steps)
            return self.finish(steps, f'pure {value}')
        if node.kind == 'call' and node.path[0] == 'Read' and is_tape(node.items[0]):
            node = Node('method', node.line, inner=tape, name=node.path[1], types=node.types, items=node.items[1:])
        if node.kind == 'call' and node.path == ['Font', 'read'] and is_tape(node.items[0]):
            return 'Font.read accept'
        if node.kind != 'method':
            raise Failure(f'line {node.line}: {node.kind} as a result')
        if is_tape(node.inner):
            steps = []
            items = [self.value(item, steps) for item in node.items]
            if node.name == 'jump':
                term = f'jump {items[0]}'
            elif node.name == 'peek' and node.types == [('path', ['Tag'], [])]:
                term = 'peek takeTag'
            elif node.name == 'take' and not node.types:
                if (self.function.name, self.kind) == ('read', 'value'):
                    term = 'Offsets.read accept'  # The type of the field `offsets`.
                else:
                    term = 'Font.value accept'  # `Self` as the result type says.
            elif node.name == 'take' and node.types[0][1] == ['U']:
                term = 'r'
            elif node.name == 'take_given' and node.types[0][1] == ['U']:
                term = f'r {items[0]}'
            else:
                raise Failure(f'line {node.line}: an unknown operation {node.name}')
            return self.finish(steps, term)
        if node.name == 'checksum' and len(node.items) == 1 and is_tape(node.items[0]):
            return f'checksum {self.pure(node.inner)}'
        if node.name == 'position' and node.inner.kind == 'path' and node.inner.path == ['self'] \
                and [item[1] for item in node.types] == [['T'], ['U']]:
            return 'Font.position cfg checksum self table'
        if node.name == 'transpose' and node.inner.kind == 'method' and node.inner.name == 'map':
            mapping = node.inner
            steps = []
            value = self.value(mapping.inner, steps)
            closure = mapping.items[0]
            (pattern,) = closure.patterns
            return self.finish(steps, f'mapOption (fun {self.pattern(pattern)} => {self.term(closure.body)}) {value}')
        raise Failure(f'line {node.line}: an unknown result {node.name}')

    @staticmethod
    def finish(steps, term):
        return '\n'.join(steps + [term]) if steps else term

    @staticmethod
    def statements(block):
        """The statements of a block whose value is `()`."""
        tail = block.tail
        return block.items + ([Node('do', tail.line, value=tail, condition=None)] if tail else [])

    def sequence(self, statements, tail, after):
        """The lines of a sequence of statements. `after` translates a result that leaves the function."""
        if not statements:
            return tail
        item, rest = statements[0], statements[1:]
        if item.kind == 'let':
            steps = []
            self.simple(item, steps)
            return steps + self.sequence(rest, tail, after)
        if item.kind == 'return':
            if rest:
                raise Failure(f'line {item.line}: unreachable code')
            return after(self.term(item.value)).split('\n')
        if item.kind == 'for':
            body = self.sequence(self.statements(item.body), ['pure none'], lambda term: f'returning ({term})')
            lines = [f'forReturn {self.pure(item.value)}', f'  (fun {self.pattern(item.pattern)} => do']
            lines += ['    ' + line for line in body]
            lines[-1] += ')'
            lines += ['  (do'] + ['    ' + line for line in self.sequence(rest, tail, after)]
            lines[-1] += ')'
            return lines
        value = item.value
        if value.kind == 'try':
            lines = self.term(value.inner).split('\n')
            return lines + self.sequence(rest, tail, after)
        if value.kind == 'if' and value.other is None:
            steps = []
            condition = self.value(value.condition, steps)
            inner = self.statements(value.then)
            if len(inner) == 1 and inner[0].kind == 'do' and inner[0].value.kind == 'macro' and \
                    inner[0].value.name == 'raise':
                lines = steps + [f'raiseIf {condition} {self.message(inner[0].value)}']
                if item.condition:
                    feature, on = item.condition
                    lines = [f'(if cfg.{FEATURES[feature]} = {str(on).lower()} then do'] + ['  ' + line for line in lines] \
                        + ['else pure ())']
                return lines + self.sequence(rest, tail, after)
            if item.condition or rest or steps:
                raise Failure(f'line {item.line}: an unknown conditional')
            then = self.sequence(inner, tail, after)
            return [f'if {condition} then do'] + ['  ' + line for line in then] + ['else'] + ['  ' + line for line in tail]
        raise Failure(f'line {item.line}: an unknown statement')

    def message(self, node):
        text = node.items[0].value
        names = [self.pure(item) for item in node.items[1:]]
        if len(re.findall(r'\{:?\??\}', text)) != len(names):
            raise Failure(f'line {node.line}: an unknown format')
        text = re.sub(r' \{:?\??\}', '', text)
        return f'⟨{text}, [{", ".join(names)}]⟩' if names else text

    def reader(self):
        body = self.function.body
        tail = self.term(body.tail).split('\n')
        return self.sequence(body.items, tail, lambda term: term)

    def plain(self):
        steps = []
        value = self.block(self.function.body, steps)
        if all(' := ' in step or ' :=\n' in step for step in steps):
            return steps + [value]
        last = steps[-1].split(' ← ', 1)
        if last[0] == f'let {value}':
            return ['do'] + ['  ' + step for step in steps[:-1] + [last[1]]]
        return ['do'] + ['  ' + step for step in steps] + [f'  pure {value}']


def read_file(source, path):
    with open(os.path.join(source, path), encoding='utf-8') as handle:
        return items(tokenize(handle.read()))


def simple(source, target):
    """The modules Methods and Font."""
    texts = {'Methods': [], 'Font': []}
    cache, count = {}, 0
    imports = {'Methods': ['Verif.Model.Cpal', 'Verif.Model.Lists'], 'Font': ['Verif.Model.Font']}
    for module in texts:
        texts[module] = [f'import {name}' for name in imports[module] + ['Verif.Proof.Methods']]
        texts[module] += ['/-!', '# Generated by `tools/translate.py` from the source: do not edit', '',
                          'Each definition is the translation of the code at the lines given, and each theorem says that the'
                          ' definition', 'of the model written by hand is the same.', '-/', '',
                          'set_option linter.unusedVariables false', '', 'namespace OpenType.Generated', '']
        if module == 'Font':
            texts[module] += ['open offsets', '']

    def emit(module, space, name, path, begin, end, lines, model=None):
        nonlocal count
        count += 1
        place = f'src/{path}:{begin}-{end}'
        key = f'{space}.{name}' if space else name
        model = model or f'OpenType.{key}'
        text = [f'namespace {space}'] if space else []
        text += [f'/-- `{place}`. -/'] + lines + ['']
        text += [f'/-- The model of `{place}` is its translation. -/',
                 f'theorem {name}_eq : @{name} = @{model} := {PROOFS.get(key, "rfl")}']
        text += [f'end {space}', ''] if space else ['']
        texts[module] += text

    # The tags of the types of tables.
    found, _, _ = read_file(source, 'table.rs')
    rows = []
    for owner, trait, inner in found:
        if trait is None or trait[1] != ['Table'] or inner.name != 'tag' or inner.body.items:
            raise Failure(f'table.rs: line {inner.begin}: an unknown function')
        value = inner.body.tail
        if value.kind != 'call' or value.path != ['Tag'] or value.items[0].kind != 'unary':
            raise Failure(f'table.rs: line {inner.begin}: an unknown tag')
        rows.append(f'  | .{owner[0].lower()}{owner[1:]} => {quote(value.items[0].inner.value)[1:-1]}')
    invocation = [item for item in read_file(source, 'table.rs')[2] if item[0] == 'implement'][0]
    emit('Font', None, 'TableType.tag', 'table.rs', invocation[1], invocation[2],
         ['def TableType.tag : TableType → Tag'] + rows +
         ['  | .custom a b c d => a.toNat * 16777216 + b.toNat * 65536 + c.toNat * 256 + d.toNat'])

    expected = {key[:3] for key in METHODS}
    for path in dict.fromkeys(key[0] for key in METHODS):
        found, structures, _ = read_file(source, path)
        cache[path] = found, structures
        seen = {(path, owner, inner.name) for owner, trait, inner in found if trait is None}
        left = {key for key in seen - expected if key[1] not in ('Feature', 'Script', 'Language')}
        if left or expected_of(path) - seen:
            raise Failure(f'{path}: {sorted(map(str, left))} are not translated or {sorted(map(str, expected_of(path) - seen))}'
                          ' do not exist')
    for path, name, fields in (('font.rs', 'Font', 'pub offsets : Offsets ,'), ('file.rs', 'File', 'pub fonts : Vec < Font > ,')):
        if ' '.join(token.text for token in cache[path][1][name]) != fields:
            raise Failure(f'{path}: the fields of {name} are unknown')

    for path, owner, name, space, module, signature in METHODS:
        for kind in ('value', None):
            chosen = [inner for o, trait, inner in cache[path][0]
                      if (o, inner.name) == (owner, name) and (trait[1][-2] if trait else None) == kind]
            if not chosen:
                continue
            (inner,) = chosen
            full = f'{owner}.{name}' if owner else name
            if kind == 'value':
                full = f'{owner}.value'
            method = Method(inner, kind)
            try:
                if 'Reader' in signature.split(':')[-1]:
                    lines = method.reader()
                    head = ' do'
                else:
                    lines = method.plain()
                    head = ''
                    if lines[0] == 'do':
                        head, lines = ' do', [line[2:] for line in lines[1:]]
            except Failure as failure:
                raise Failure(f'{path}: {failure}') from None
            lines = [line for part in lines for line in part.split('\n')]
            text = [f'def {full} {signature} :={head}'] + ['  ' + line for line in lines]
            emit(module, space, full, path, inner.begin, inner.end, text,
                 'OpenType.Font.read' if kind == 'value' else None)
    for module, text in texts.items():
        text.append('end OpenType.Generated')
        with open(os.path.join(target, f'{module}.lean'), 'w') as handle:
            handle.write('\n'.join(text) + '\n')
    return count


def expected_of(path):
    return {key[:3] for key in METHODS if key[0] == path}


# Enumerations

def chars(text):
    return '[' + ', '.join(f"'{c}'" for c in text) + ']'


def literal(token):
    text = re.sub(r'\\\n\s*', '', token[1:-1])
    if '\\' in text:
        raise Failure(f'an unknown literal {token}')
    return text


class Arms:
    """The arms of a `match` whose patterns are all of one kind, apart from the last one."""

    def __init__(self, node, pattern, body, last):
        if node is None or node.kind != 'match':
            raise Failure('a `match` is wanted')
        self.rows = []
        for (left, right), condition in list(zip(node.arms, node.conditions))[:-1]:
            if condition not in (None, ('default-language', True)):
                raise Failure(f'line {left.line}: an unknown condition {condition}')
            self.rows.append((condition is not None, pattern(left), body(right)))
        left, right = node.arms[-1]
        if node.conditions[-1] or not last(left, right):
            raise Failure(f'line {left.line}: an unknown arm')


def is_path(node, path):
    return node is not None and node.kind == 'path' and node.path == path


def enumeration(source, path, space, name):
    """The definitions of an enumeration: name, lines of the source, lines of Lean."""
    found, structures, invocations = read_file(source, path)
    names = ('Self', name)

    def variant(node):
        """A variant as a pattern or a value."""
        if node.kind not in ('variant', 'path') or len(node.path) != 2 or node.path[0] not in names or \
                getattr(node, 'items', None):
            raise Failure(f'line {node.line}: an unknown variant')
        return node.path[1]

    def byte(node):
        if node.kind == 'unary' and node.op == '*':
            node = node.inner
        if node.kind != 'byte':
            raise Failure(f'line {node.line}: an unknown tag')
        quote(node.value)
        return '0x' + eval(node.value).hex().upper()

    def some(node):
        if node.kind != 'call' or node.path != ['Some'] or node.items[0].kind != 'string':
            raise Failure(f'line {node.line}: an unknown name')
        return '"' + literal(node.items[0].value) + '"'

    def tag(node):
        if node.kind != 'call' or node.path != ['Tag']:
            raise Failure(f'line {node.line}: an unknown tag')
        return byte(node.items[0])

    def codes(node):
        if node.kind != 'string':
            raise Failure(f'line {node.line}: unknown codes')
        return chars(literal(node.value))

    # The variants.
    parser, declared = Parser(structures[name]), []
    while parser.peek().kind != 'end':
        gated = False
        while parser.eat('#'):
            tree = parser.tree()
            if tree[0].text == 'cfg':
                if Parser.feature(tree) != ('default-language', True):
                    raise Failure(f'{path}: an unknown condition')
                gated = True
            elif tree[0].text != 'doc':
                raise Failure(f'{path}: an unknown attribute')
        variant_name = parser.ident()
        if parser.sees('('):
            if ' '.join(token.text for token in parser.tree()) != 'Tag' or variant_name != 'Other' or gated:
                raise Failure(f'{path}: an unknown variant {variant_name}')
            parser.eat(',')
            if parser.peek().kind != 'end':
                raise Failure(f'{path}: {variant_name} is not the last variant')
            break
        declared.append((gated, variant_name))
        parser.eat(',')
    else:
        raise Failure(f'{path}: a variant `Other` is wanted')

    methods = {}
    for owner, trait, inner in found:
        if (owner, trait) == (name, None):
            methods[inner.name] = inner
        elif owner == 'Tag' and trait and trait[1] == ['From'] and [t[1] for t in trait[2]] == [[name]]:
            methods['into'] = inner
    expected = {'from_tag', 'name', 'into'} | ({'codes'} if name == 'Language' else set())
    if set(methods) != expected:
        raise Failure(f'{path}: {sorted(methods)} are not the methods of {name}')

    def only(method):
        if method.body.items:
            raise Failure(f'{path}: line {method.begin}: unknown statements')
        return method.body.tail

    node = only(methods['from_tag'])
    value = node.value
    while value.kind == 'unary' and value.op in '&*':
        value = value.inner
    if not is_path(value, ['tag']):
        raise Failure(f'{path}: line {node.line}: an unknown value')
    from_tag = Arms(node, byte, variant, lambda left, right: left.kind == 'any' and right.kind == 'call'
                    and right.path in [[n, 'Other'] for n in names] and right.items[0].kind == 'method'
                    and right.items[0].name == 'clone' and is_path(right.items[0].inner, ['tag']))
    node = only(methods['name'])
    if not is_path(node.value, ['self']):
        raise Failure(f'{path}: line {node.line}: an unknown value')
    called = Arms(node, variant, some, lambda left, right: left.kind == 'any' and is_path(right, ['None']))
    node = only(methods['into'])
    if not is_path(node.value, [methods['into'].arguments[0]]):
        raise Failure(f'{path}: line {node.line}: an unknown value')
    into = Arms(node, variant, tag, lambda left, right: left.kind == 'variant' and left.path in [[n, 'Other'] for n in names]
                and left.items[0].kind == 'bind' and is_path(right, [left.items[0].name]))

    def table(title, kind, rows, show):
        return [f'def {name}.{title} : List ({kind}) := ['] + \
            [f'  ({str(row[0]).lower()}, {show(row)})' + (',' if i + 1 < len(rows) else ']') for i, row in enumerate(rows)]

    gated = 'row.gated' if name == 'Language' else 'false'
    on = 'cfg.defaultLanguage' if name == 'Language' else 'true'
    cfg = ' (cfg : Cfg)' if name == 'Language' else ''
    rows = f'OpenType.{space}.rows'
    apart = f'theorem {name}.apart : apart ({rows}.map fun row => number row.variant) = true := by decide +kernel'
    out = [(f'{name}.variants', table('variants', 'Bool × String', declared, lambda row: f'"{row[1]}"'),
            f'{name}.variants = {rows}.map fun row => ({gated}, row.variant)', 'rfl', None),
           (None, [apart], None, None, None)]
    view = f'view (rows := {rows}) (fun row => row.variant)'

    def arms(title, kind, rows_, show, right):
        out.append((f'{name}.{title}', table(title, kind, rows_, show),
                    f'{name}.{title} = {rows}.map fun row => {right}', 'rfl', None))
    arms('tag_arms', 'Arm Tag String', from_tag.rows, lambda row: f'{row[1]}, "{row[2]}"',
         f'({gated}, row.tag, row.variant)')
    arms('name_arms', 'Arm String String', called.rows, lambda row: f'"{row[1]}", {row[2]}',
         f'({gated}, row.variant, row.name)')
    arms('into_arms', 'Arm String Tag', into.rows, lambda row: f'"{row[1]}", {row[2]}',
         f'({gated}, row.variant, row.tag)')
    model = f'OpenType.{space}.{name}'
    call = ' cfg' if cfg else ''
    extra = (f' (h : {model}.exists_ cfg x = true)' if cfg else '')
    present = 'h' if cfg else 'rfl'
    out.append((f'{name}.from_tag', [
        f'def {name}.from_tag{cfg} (tag : Tag) : Variant :=',
        f'  match firstMatch {on} {name}.tag_arms tag with',
        '  | some variant => .inl variant',
        '  | none => .inr tag'],
        (f'{cfg} (tag : Tag)', f'{name}.from_tag{call} tag = {view} ({model}.from_tag{call} tag)'),
        f'by\n  unfold {name}.from_tag\n  rw [{name}.tag_arms_eq]\n  exact first_eq _ _ _ _ _ _', methods['from_tag']))

    def unary(title, ty, arms_, form, other, model_name, method):
        term = form.format(f'firstMatch {on} {name}.{arms_} variant')
        body = [f'def {name}.{title}{cfg} : Variant → {ty}', f'  | .inl variant => {term}',
                f'  | .inr {"tag" if other == "tag" else "_"} => {other}']
        out.append((f'{name}.{title}', body,
                    (f'{cfg} (x : {model}){extra}', f'{name}.{title}{call} ({view} x) = {model}.{model_name} x'),
                    f'by\n  cases x with\n  | known row =>\n    show {form.format("firstMatch _ _ _")} = _\n'
                    f'    rw [{name}.{arms_}_eq, of_variant_eq _ _ _ _ _ {name}.apart row {present}]\n    rfl\n'
                    f'  | other tag => rfl', method))
    unary('name', 'Option String', 'name_arms', '{}', 'none', 'name', methods['name'])
    unary('into', 'Tag', 'into_arms', '({}).getD 0', 'tag', 'tag', methods['into'])
    if name == 'Language':
        method = methods['codes']
        body = method.body
        text = [item for item in body.items]
        if len(text) != 2 or [item.kind for item in text] != ['let', 'let'] or text[1].pattern.name != 'value' or \
                text[0].pattern.name != 'filter' or not is_path(text[1].value.value, ['self']):
            raise Failure(f'{path}: line {method.begin}: unknown statements')
        closure = text[0].value
        code = closure.patterns[0].name
        if not (closure.body.kind == 'unary' and closure.body.op == '!' and closure.body.inner.kind == 'method'
                and closure.body.inner.name == 'is_empty' and is_path(closure.body.inner.inner, [code])):
            raise Failure(f'{path}: line {closure.line}: an unknown closure')
        tail = body.tail
        if not (tail.kind == 'method' and tail.name == 'filter' and is_path(tail.items[0], ['filter'])
                and tail.inner.kind == 'method' and tail.inner.name == 'split' and is_path(tail.inner.inner, ['value'])
                and tail.inner.items[0].value == '", "'):
            raise Failure(f'{path}: line {tail.line}: an unknown value')
        listed = Arms(text[1].value, variant, codes, lambda left, right: left.kind == 'any' and right.kind == 'string'
                      and right.value == '""')
        arms('codes_arms', 'Arm String (List Char)', listed.rows, lambda row: f'"{row[1]}", {row[2]}',
             f'({gated}, row.variant, row.codes)')
        form = '(OpenType.language.split {}).filter (fun code => !code.isEmpty)'
        unary('codes', 'List (List Char)', 'codes_arms', form.format('(({}).getD [])'), form.format('[]'), 'codes', method)
    invocation = [item for item in invocations if item[0] == 'implement'][0]
    return out, invocation[1], invocation[2]


def lines_of(source, path, name):
    """The lines of a function in the body of a macro."""
    with open(os.path.join(source, path), encoding='utf-8') as handle:
        lines = handle.read().split('\n')
    begin = [i for i, line in enumerate(lines) if re.search(rf'\bfn {name}\(', line)][0]
    pad = re.match(' *', lines[begin]).group()
    return begin + 1, lines.index(pad + '}', begin) + 1


def tags(source, target):
    """The module Tags."""
    text = ['import Verif.Proof.Variants', '/-!', '# Generated by `tools/translate.py` from the source: do not edit', '',
            'The macro `implement!` of each file is expanded, and each `match` of the methods is listed arm by arm. The'
            ' theorems say', 'that the model written by hand, and its tables, are the same.', '-/', '',
            'set_option maxRecDepth 100000', '', 'namespace OpenType.Generated', '']
    count = 0
    for path, space, name in (('layout/feature.rs', 'feature', 'Feature'), ('layout/script.rs', 'script', 'Script'),
                              ('layout/language.rs', 'language', 'Language')):
        out, begin, end = enumeration(source, path, space, name)
        text += [f'namespace {space}', '']
        for title, lines, statement, proof, method in out:
            if title is None:
                text += ['/-- No two variants have the same name. -/'] + lines + ['']
                continue
            place = f'src/{path}:{begin}-{end}'
            if method is not None:
                place = f'src/{path}:%d-%d' % lines_of(source, path, method.name)
            count += 1
            text += [f'/-- `{place}`. -/'] + lines + ['', f'/-- The model of `{place}` is its translation. -/']
            if isinstance(statement, tuple):
                text += [f'theorem {title}_eq{statement[0]} :', f'    {statement[1]} := {proof}', '']
            else:
                text += [f'theorem {title}_eq : {statement} := {proof}', '']
        text += [f'end {space}', '']
    text.append('end OpenType.Generated')
    with open(os.path.join(target, 'Tags.lean'), 'w', encoding='utf-8') as handle:
        handle.write('\n'.join(text) + '\n')
    return count


def main(source, target):
    return simple(source, target) + tags(source, target)
