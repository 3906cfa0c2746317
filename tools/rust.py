"""A parser of the subset of Rust in which /repo/src is written.

It covers what the readers need: structures, enumerations, type aliases, implementations of traits, the macros `table!`
and `flags!`, local macros given by `macro_rules!`, and expressions without loops. Anything else is an error, apart from
items that contain no reader, which are skipped by name in translate.py.
"""
import re

TOKEN = re.compile(r'''
    (?P<space>\s+)
  | (?P<doc>//[^\n]*)
  | (?P<block>/\*.*?\*/)
  | (?P<byte>b"(?:[^"\\]|\\.)*")
  | (?P<string>"(?:[^"\\]|\\.)*")
  | (?P<life>'[a-z_]+(?!'))
  | (?P<char>'(?:[^'\\]|\\.)')
  | (?P<number>0x[0-9a-fA-F_]+|0b[01_]+|[0-9][0-9_]*)
  | (?P<ident>r\#[A-Za-z_]\w*|[A-Za-z_]\w*)
  | (?P<punct>\.\.=|=>|->|::|\.\.|\|\||&&|==|!=|<=|>=|\+=|-=|\*=|<<|>>|[-+*/%^!&|=<>@.,;:\#$?(){}\[\]_~])
''', re.X | re.S)


class Token:
    def __init__(self, kind, text, line):
        self.kind, self.text, self.line = kind, text, line

    def __repr__(self):
        return f'{self.text}@{self.line}'


class Failure(Exception):
    pass


def tokenize(text):
    tokens, at, line = [], 0, 1
    while at < len(text):
        match = TOKEN.match(text, at)
        if not match:
            raise Failure(f'line {line}: {text[at:at + 20]!r}')
        kind = match.lastgroup
        if kind not in ('space', 'doc', 'block'):
            tokens.append(Token(kind, match.group(), line))
        line += match.group().count('\n')
        at = match.end()
    return tokens


OPEN = {'(': ')', '[': ']', '{': '}'}


class Node:
    """A node of the syntax tree. Expressions get their types in `ty`."""

    def __init__(self, kind, line, **fields):
        self.kind, self.line, self.ty = kind, line, None
        self.__dict__.update(fields)

    def __repr__(self):
        return f'{self.kind}@{self.line}'


class Parser:
    def __init__(self, tokens, macros=None):
        self.tokens, self.at = tokens, 0
        self.macros = macros if macros is not None else {}

    # Tokens

    def peek(self, n=0):
        return self.tokens[self.at + n] if self.at + n < len(self.tokens) else Token('end', '', -1)

    def next(self):
        token = self.peek()
        self.at += 1
        return token

    def sees(self, *texts):
        return all(self.peek(i).text == text for i, text in enumerate(texts))

    def eat(self, text):
        if self.peek().text == text and self.peek().kind != 'string':
            self.at += 1
            return True
        return False

    def want(self, text):
        token = self.next()
        if token.text != text:
            raise Failure(f'line {token.line}: wanted {text!r}, found {token.text!r}')
        return token

    def ident(self):
        token = self.next()
        if token.kind != 'ident':
            raise Failure(f'line {token.line}: wanted a name, found {token.text!r}')
        return token.text

    def tree(self):
        """The tokens of one delimited group, without the delimiters."""
        start = self.next()
        if start.text not in OPEN:
            raise Failure(f'line {start.line}: wanted a group, found {start.text!r}')
        begin, depth = self.at, 1
        while depth:
            token = self.next()
            if token.kind == 'end':
                raise Failure(f'line {start.line}: unclosed group')
            if token.kind == 'punct':
                depth += (token.text in '([{') - (token.text in ')]}')
        return self.tokens[begin:self.at - 1]

    # Types

    def angle(self):
        """Eat a closing angle bracket, splitting `>>`."""
        token = self.peek()
        if token.text == '>>':
            self.tokens = list(self.tokens)
            self.tokens[self.at:self.at + 1] = [Token('punct', '>', token.line), Token('punct', '>', token.line)]
        self.want('>')

    def type(self):
        token = self.peek()
        if self.eat('('):
            items = []
            while not self.eat(')'):
                items.append(self.type())
                self.eat(',')
            return items[0] if len(items) == 1 else ('tuple', items)
        if self.eat('_') or (token.kind == 'ident' and token.text == '_' and self.next()):
            return ('hole', [])
        if self.eat('&') or self.eat('&&'):
            if self.peek().kind == 'life':
                self.next()
            self.eat('mut')
            return self.type()
        path = [self.ident()]
        while self.eat('::'):
            path.append(self.ident())
        items = []
        if self.eat('<'):
            while not (self.sees('>') or self.sees('>>')):
                if self.peek().kind == 'life':
                    self.next()
                elif self.peek(1).text == '=':
                    self.at += 2
                    items.append(('named', self.type()))
                else:
                    items.append(self.type())
                self.eat(',')
            self.angle()
        return ('path', path, items)

    # Expressions

    LEVELS = [['||'], ['&&'], ['==', '!=', '<', '>', '<=', '>='], ['|'], ['^'], ['&'], ['<<', '>>'], ['+', '-'],
              ['*', '/', '%']]

    def expression(self, literals=True):
        line = self.peek().line
        if self.sees('|') or self.sees('||') or self.sees('move'):
            return self.closure()
        left = self.binary(0, literals)
        if self.eat('..'):
            right = self.binary(0, literals)
            return Node('range', line, start=left, end=right)
        return left

    def closure(self):
        line = self.peek().line
        self.eat('move')
        names, patterns = [], []
        if not self.eat('||'):
            self.want('|')
            while not self.eat('|'):
                begin = self.at
                patterns.append(self.single())
                names.append(''.join(token.text for token in self.tokens[begin:self.at]))
                if self.eat(':'):
                    self.type()
                self.eat(',')
        return Node('closure', line, names=names, patterns=patterns, body=self.expression())

    def binary(self, level, literals):
        if level == len(self.LEVELS):
            return self.cast(literals)
        left = self.binary(level + 1, literals)
        while self.peek().kind == 'punct' and self.peek().text in self.LEVELS[level]:
            token = self.next()
            right = self.binary(level + 1, literals)
            left = Node('binary', token.line, op=token.text, left=left, right=right)
        return left

    def cast(self, literals):
        inner = self.unary(literals)
        while self.eat('as'):
            inner = Node('cast', inner.line, inner=inner, to=self.type())
        return inner

    def unary(self, literals):
        token = self.peek()
        if token.text in ('&', '*', '!', '-') and token.kind == 'punct':
            self.next()
            self.eat('mut')
            return Node('unary', token.line, op=token.text, inner=self.unary(literals))
        return self.postfix(literals)

    def arguments(self):
        self.want('(')
        items = []
        while not self.eat(')'):
            items.append(self.expression())
            self.eat(',')
        return items

    def turbofish(self):
        if not self.sees('::', '<'):
            return None
        self.at += 2
        types = []
        while not (self.sees('>') or self.sees('>>')):
            types.append(self.type())
            self.eat(',')
        self.angle()
        return types

    def postfix(self, literals):
        inner = self.primary(literals)
        while True:
            token = self.peek()
            if self.eat('?'):
                inner = Node('try', token.line, inner=inner)
            elif self.eat('.'):
                name = self.next()
                types = self.turbofish()
                if self.sees('('):
                    inner = Node('method', token.line, inner=inner, name=name.text, types=types, items=self.arguments())
                else:
                    inner = Node('field', token.line, inner=inner, name=name.text)
            elif self.sees('['):
                self.next()
                index = self.expression()
                self.want(']')
                inner = Node('index', token.line, inner=inner, index=index)
            elif self.sees('(') and inner.kind == 'path':
                inner = Node('call', token.line, path=inner.path, types=inner.types, items=self.arguments())
            else:
                return inner

    def primary(self, literals):
        token = self.peek()
        if token.kind == 'number':
            self.next()
            return Node('number', token.line, value=int(token.text.replace('_', ''), 0))
        if token.kind in ('string', 'byte'):
            self.next()
            return Node(token.kind, token.line, value=token.text)
        if self.eat('('):
            items, comma = [], False
            while not self.eat(')'):
                items.append(self.expression())
                comma = self.eat(',')
            if len(items) == 1 and not comma:
                return items[0]
            return Node('tuple', token.line, items=items)
        if self.sees('{'):
            return self.block()
        if self.sees('if'):
            return self.condition()
        if self.sees('match'):
            return self.match()
        if token.kind != 'ident':
            raise Failure(f'line {token.line}: unexpected {token.text!r}')
        path, types = [self.ident()], None
        while self.sees('::'):
            types = self.turbofish()
            if types is None:
                self.next()
                path.append(self.ident())
        if self.sees('!') and self.peek(1).text in OPEN:
            self.next()
            return self.invocation(path[-1], token.line)
        if literals and self.sees('{') and path[-1][0].isupper():
            self.next()
            fields = []
            while not self.eat('}'):
                name = self.ident()
                line = self.peek().line
                value = self.expression() if self.eat(':') else Node('path', line, path=[name], types=None)
                fields.append((name, value))
                self.eat(',')
            return Node('struct', token.line, path=path, fields=fields)
        return Node('path', token.line, path=path, types=types)

    def block(self):
        token = self.want('{')
        inner = Parser(self.tokens, dict(self.macros))
        inner.at = self.at
        body = inner.statements()
        self.tokens, self.at = inner.tokens, inner.at
        self.want('}')
        return Node('block', token.line, **body)

    def statements(self):
        items, tail = [], None
        while not self.sees('}') and self.peek().kind != 'end':
            token = self.peek()
            condition = None
            while self.eat('#'):
                condition = self.feature(self.tree())
            if self.eat(';'):
                continue
            if self.sees('macro_rules', '!'):
                self.rules()
                continue
            if self.eat('for'):
                pattern = self.pattern()
                self.want('in')
                value = self.expression(literals=False)
                items.append(Node('for', token.line, pattern=pattern, value=value, body=self.block(),
                                  condition=condition))
                continue
            if self.eat('return'):
                items.append(Node('return', token.line, value=self.expression(), condition=condition))
                self.want(';')
                continue
            if self.eat('let'):
                self.eat('mut')
                pattern = self.pattern()
                ty = self.type() if self.eat(':') else None
                self.want('=')
                items.append(Node('let', token.line, pattern=pattern, annotation=ty, value=self.expression(),
                                  condition=condition))
                self.want(';')
                continue
            if self.peek().kind == 'ident' and self.peek(1).text == '+=':
                name = self.ident()
                self.next()
                items.append(Node('assign', token.line, name=name, value=self.expression(), condition=condition))
                self.want(';')
                continue
            value = self.expression()
            if self.eat(';'):
                items.append(Node('do', token.line, value=value, condition=condition))
            elif self.sees('}') or self.peek().kind == 'end':
                if condition:
                    raise Failure(f'line {token.line}: a conditional tail')
                tail = value
            elif value.kind in ('if', 'match', 'block'):
                items.append(Node('do', token.line, value=value, condition=condition))
            else:
                raise Failure(f'line {token.line}: wanted `;`, found {self.peek()!r}')
        return dict(items=items, tail=tail)

    @staticmethod
    def feature(tokens):
        """The feature and the value it must have, for `#[cfg(..)]`."""
        text = ''.join(token.text for token in tokens)
        match = re.fullmatch(r'\[?cfg\((not\()?feature="([a-z-]+)"\)?\)\]?', text)
        if not match:
            raise Failure(f'an unknown attribute {text}')
        return match.group(2), match.group(1) is None

    def condition(self):
        token = self.want('if')
        condition = self.expression(literals=False)
        then = self.block()
        other = None
        if self.eat('else'):
            other = self.condition() if self.sees('if') else self.block()
        return Node('if', token.line, condition=condition, then=then, other=other)

    def match(self):
        token = self.want('match')
        value = self.expression(literals=False)
        self.want('{')
        arms, conditions = [], []
        while not self.eat('}'):
            condition = None
            while self.eat('#'):
                condition = self.feature(self.tree())
            conditions.append(condition)
            pattern = self.pattern()
            self.want('=>')
            body = self.expression()
            self.eat(',')
            arms.append((pattern, body))
        return Node('match', token.line, value=value, arms=arms, conditions=conditions)

    def pattern(self):
        token = self.peek()
        items = [self.single()]
        while self.eat('|'):
            items.append(self.single())
        return items[0] if len(items) == 1 else Node('or', token.line, items=items)

    def single(self):
        token = self.peek()
        if token.text == '_':
            self.next()
            return Node('any', token.line)
        if token.kind == 'number':
            start = self.primary(False)
            if self.eat('..='):
                return Node('between', token.line, start=start, end=self.primary(False))
            return start
        if token.kind == 'byte':
            return self.primary(False)
        if self.eat('('):
            items = []
            while not self.eat(')'):
                items.append(self.pattern())
                self.eat(',')
            return Node('tuple', token.line, items=items)
        self.eat('ref')
        path = [self.ident()]
        while self.eat('::'):
            path.append(self.ident())
        if self.sees('('):
            self.next()
            items = []
            while not self.eat(')'):
                items.append(self.pattern())
                self.eat(',')
            return Node('variant', token.line, path=path, items=items)
        if path[-1] == 'None' or len(path) > 1:
            return Node('variant', token.line, path=path, items=[])
        return Node('bind', token.line, name=path[0])

    # Macros

    EXTERNAL = ('jump_take', 'jump_take_maybe', 'jump_take_given', 'raise', 'vec', 'debug_assert', 'matches')

    def invocation(self, name, line):
        tokens = self.tree()
        if name in self.macros:
            expanded = expand(self.macros[name], tokens, line)
            inner = Parser(expanded, self.macros)
            value = inner.expression()
            if inner.peek().kind != 'end':
                raise Failure(f'line {line}: the macro {name} gives more than an expression')
            return value
        if name not in self.EXTERNAL:
            raise Failure(f'line {line}: an unknown macro {name}')
        inner = Parser(tokens, self.macros)
        unwrap = False
        if inner.sees('@', 'unwrap'):
            inner.at += 2
            unwrap = True
        items = []
        while inner.peek().kind != 'end':
            if inner.peek().kind == 'ident' and inner.peek(1).text == '=>':
                names = [inner.ident()]
                inner.next()
                items.append(Node('closure', line, names=names, body=inner.expression()))
            else:
                items.append(inner.expression())
            inner.eat(',')
        return Node('macro', line, name=name, unwrap=unwrap, items=items, text=spell(tokens))

    def rules(self):
        self.want('macro_rules')
        self.want('!')
        name = self.ident()
        inner = Parser(self.tree())
        arms = []
        while inner.peek().kind != 'end':
            matcher = inner.tree()
            inner.want('=>')
            arms.append((matcher, inner.tree()))
            inner.eat(';')
        self.macros[name] = arms


def spell(tokens):
    """The text of an expression as `stringify!` gives it."""
    text = ' '.join(token.text for token in tokens)
    return re.sub(r' ?(\.|::|\(|\[) ?', r'\1', re.sub(r' (\)|\]|\?|,)', r'\1', text))


# Local macros

def matcher(tokens):
    """Parse the left-hand side of a rule."""
    parser, items = Parser(tokens), []
    while parser.peek().kind != 'end':
        if parser.eat('$'):
            if parser.sees('('):
                inner = matcher(parser.tree())
                separator = None
                if not (parser.sees('*') or parser.sees('+')):
                    separator = parser.next().text
                parser.next()
                items.append(('repeat', inner, separator))
            else:
                name = parser.ident()
                parser.want(':')
                items.append(('fragment', name, parser.ident()))
        else:
            items.append(('token', parser.next().text))
    return items


def fragments(items):
    for item in items:
        if item[0] == 'fragment':
            yield item[1]
        elif item[0] == 'repeat':
            yield from fragments(item[1])


def consume(items, parser, bindings):
    for item in items:
        if item[0] == 'token':
            parser.want(item[1])
        elif item[0] == 'fragment':
            begin = parser.at
            if item[2] == 'expr':
                parser.expression()
            elif item[2] == 'ident':
                parser.ident()
            elif item[2] == 'literal' and parser.peek().kind in ('string', 'byte', 'number', 'char'):
                parser.next()
            elif item[2] == 'meta':
                parser.ident()
                if parser.peek().text in OPEN:
                    parser.tree()
            else:
                raise Failure(f'an unknown fragment {item[2]}')
            bindings[item[1]] = parser.tokens[begin:parser.at]
        else:
            rows, first = [], item[1][0]
            while parser.peek().kind != 'end' and parser.peek().text not in ')}]':
                if first[0] == 'token' and not parser.sees(first[1]):
                    break
                row = {}
                consume(item[1], parser, row)
                rows.append(row)
                if item[2] and not parser.eat(item[2]):
                    break
            for name in fragments(item[1]):
                bindings[name] = [row[name] for row in rows]
    return bindings


def substitute(tokens, bindings, line):
    parser, out = Parser(tokens), []
    while parser.peek().kind != 'end':
        if not parser.sees('$'):
            token = parser.next()
            out.append(Token(token.kind, token.text, line))
            continue
        parser.next()
        if parser.sees('('):
            body = parser.tree()
            if not (parser.eat('*') or parser.eat('+')):
                raise Failure(f'line {line}: an unknown repetition')
            names = {body[i + 1].text for i in range(len(body) - 1) if body[i].text == '$'} - {'('}
            if [] in [bindings[name] for name in names]:
                continue
            lists = [name for name in names if isinstance(bindings[name][0], list)]
            for i in range(len(bindings[lists[0]])):
                row = {name: bindings[name][i] if name in lists else bindings[name] for name in names}
                out += substitute(body, row, line)
        else:
            out += [Token(t.kind, t.text, line) for t in bindings[parser.ident()]]
    return out


def expand(arms, tokens, line):
    for left, right in arms:
        parser = Parser(tokens)
        try:
            bindings = consume(matcher(left), parser, {})
        except Failure:
            continue
        if parser.peek().kind == 'end':
            return substitute(right, bindings, line)
    raise Failure(f'line {line}: no rule matches')
