#!/usr/bin/env python3
"""Translate /repo/src to Lean.

    python3 tools/translate.py [SOURCE [TARGET]]

Every reader of the code (each `table!`, each implementation of `value::Read` or `walue::Read`, each `flags!` and each
`Default`) is translated to a definition in lean/Verif/Generated, together with a theorem saying that it equals the
definition in lean/Verif/Model written by hand. The translation knows nothing of the model but the names of its types
and the primitives of lean/Verif/Prim.lean. Everything else (the methods, the enumerations and the files at the root) is
translated by methods.py.

What the translation takes for granted:
  - the meaning of the macros of the crate `typeface` (`table!`, `flags!`, `jump_take!`, `jump_take_maybe!`,
    `jump_take_given!`, `raise!`) and of the operations on a tape, which are the primitives of Prim.lean;
  - unsigned integers are natural numbers and arithmetic that can overflow is a primitive chosen by the type;
  - `Ok(e?)` is `e`, and a type with one unnamed field is that field.
"""
import os
import re
import sys

sys.path.insert(0, os.path.dirname(os.path.abspath(__file__)))
import methods
from rust import Failure, Node, Parser, tokenize

ROOT = os.path.dirname(os.path.dirname(os.path.abspath(__file__)))

# The source files, the namespaces of the model they correspond to and the generated modules.
FILES = [
    ('layout/coverage.rs', 'coverage', 'Layout'),
    ('layout/class.rs', 'class_', 'Layout'),
    ('layout/correction.rs', 'correction', 'Layout'),
    ('layout/context.rs', 'context', 'Layout'),
    ('layout/language.rs', 'language', 'Lists'),
    ('layout/script.rs', 'script', 'Lists'),
    ('layout/feature.rs', 'feature', 'Lists'),
    ('layout/lookup.rs', 'lookup', 'Lists'),
    ('layout/directory.rs', 'directory', 'Lists'),
    ('variations/item.rs', 'item', 'Item'),
    ('tables/glyph_definition/element.rs', 'gdef', 'Gdef'),
    ('tables/glyph_definition/mod.rs', 'gdef', 'Gdef'),
    ('tables/glyph_positioning/element.rs', 'gpos', 'Gpos'),
    ('tables/glyph_positioning/mod.rs', 'gpos', 'Gpos'),
    ('tables/glyph_substitution/element.rs', 'gsub', 'Gsub'),
    ('tables/glyph_substitution/mod.rs', 'gsub', 'Gsub'),
    ('tables/color_palettes.rs', 'cpal', 'Cpal'),
    ('tables/font_variations/mod.rs', 'fvar', 'Fvar'),
]
MODULES = {  # The imports of the generated modules.
    'Layout': ['Verif.Model.Layout', 'Verif.Model.Defaults'],
    'Lists': ['Verif.Model.Lists', 'Verif.Proof.Translation'],
    'Item': ['Verif.Model.Item'],
    'Gdef': ['Verif.Model.Gdef', 'Verif.Generated.Layout', 'Verif.Generated.Item'],
    'Gpos': ['Verif.Model.Gpos', 'Verif.Generated.Layout', 'Verif.Generated.Lists'],
    'Gsub': ['Verif.Model.Gsub', 'Verif.Generated.Layout', 'Verif.Generated.Lists'],
    'Cpal': ['Verif.Model.Cpal'],
    'Fvar': ['Verif.Model.Fvar'],
}
FEATURES = {
    'ignore-incomplete-directories': 'ignoreIncompleteDirectories',
    'ignore-incomplete-marks': 'ignoreIncompleteMarks',
}

# Names

KEYWORDS = {'type': 'type_', 'class': 'class_', 'Type': 'Type_'}


def lean(name):
    name = name[2:] if name.startswith('r#') else name
    return KEYWORDS.get(name, name)


def constructor(name):
    return name[0].lower() + name[1:]


# Types

class Ty:
    def __init__(self, name, items=(), home=None):
        self.name, self.items, self.home = name, list(items), home

    def __repr__(self):
        return f'{self.name}<{", ".join(map(repr, self.items))}>' if self.items else self.name


class Var:
    def __init__(self):
        self.to = None

    def __repr__(self):
        return repr(self.to) if self.to else '?'


def find(ty):
    while isinstance(ty, Var) and ty.to is not None:
        ty = ty.to
    return ty


def unify(a, b, line):
    a, b = find(a), find(b)
    if a is b:
        return
    if isinstance(a, Var):
        a.to = b
    elif isinstance(b, Var):
        b.to = a
    elif a.name != b.name or a.home != b.home or len(a.items) != len(b.items):
        raise Failure(f'line {line}: {a!r} is not {b!r}')
    else:
        for x, y in zip(a.items, b.items):
            unify(x, y, line)


INTEGERS = {'u8': 8, 'u16': 16, 'u32': 32, 'u64': 64, 'usize': 32}
ALIASES = {'GlyphID': 'u16', 'NameID': 'NameID', 'Tag': 'Tag', 'q32': 'q32', 'i16': 'i16', 'bool': 'bool'}
READERS = {'u8': 'u8', 'u16': 'u16', 'u32': 'u32', 'i16': 'i16', 'q32': 'q32', 'Tag': 'takeTag', 'NameID': 'u16'}
UNIT = Ty('tuple')


def integer(name):
    return Ty(name)


def result(ty):
    return Ty('Result', [ty])


def vector(ty):
    return Ty('Vec', [ty])


def option(ty):
    return Ty('Option', [ty])


# Declarations

class Declaration:
    """A type of the code."""

    def __init__(self, kind, file, space, name, begin, end):
        self.kind, self.file, self.space, self.name = kind, file, space, name
        self.begin, self.end = begin, end
        self.generics = []
        self.fields = []    # of a structure: (name, type)
        self.variants = {}  # of an enumeration: name -> type
        self.masks = []     # of flags: (name, mask)
        self.read = None
        self.default = None
        self.positional = False

    @property
    def key(self):
        return self.space, self.name


class Reading:
    """A function that reads a value."""

    def __init__(self, owner, begin, end):
        self.owner, self.begin, self.end = owner, begin, end
        self.parameters = []  # (name, type)
        self.given = None     # the type of the parameter of `walue::Read`
        self.generics = {}    # type parameter -> type of its parameter
        self.steps = None     # the fields of `table!`: (name, type, constant, names, body)
        self.body = None      # the body of `fn read`
        self.block = None     # the generated code


class File:
    def __init__(self, path, space, module):
        self.path, self.space, self.module = path, space, module
        self.imports = {}  # name -> path
        self.macros = {}


class World:
    def __init__(self, source):
        self.source = source
        self.types = {}    # (space, name) -> Declaration
        self.aliases = {}  # (space, name) -> (file, type)
        self.order = []
        self.readings = []
        self.defaults = []
        for path, space, module in FILES:
            self.load(File(path, space, module))

    # Items

    def load(self, file):
        with open(os.path.join(self.source, file.path)) as handle:
            parser = Parser(tokenize(handle.read()), file.macros)
        while parser.peek().kind != 'end':
            begin = parser.peek().line
            derived = False
            while parser.eat('#'):
                derived = True
                parser.tree()
            parser.eat('pub')
            if parser.eat('mod') or parser.eat('extern'):
                while not (parser.sees(';') or parser.sees('{')):
                    parser.next()
                if not parser.eat(';'):
                    parser.tree()  # The tests.
            elif parser.eat('use'):
                self.use(file, parser, [])
                parser.want(';')
            elif parser.eat('enum'):
                self.enumeration(file, parser, begin)
            elif parser.eat('struct'):
                self.structure(file, parser, begin)
            elif parser.eat('type'):
                name = parser.ident()
                parser.want('=')
                self.aliases[file.space, name] = (file, parser.type(), begin)
                parser.want(';')
            elif parser.eat('impl'):
                self.implementation(file, parser, begin)
            elif parser.sees('macro_rules', '!'):
                if parser.peek(2).text == 'implement':  # The lists of tags, see Model/TagData.lean.
                    parser.at += 3
                    parser.tree()
                else:
                    parser.rules()
                parser.eat(';')
            elif parser.sees('table', '!'):
                parser.at += 2
                self.table(file, parser, begin)
            elif parser.sees('flags', '!'):
                parser.at += 2
                self.flags(file, parser, begin)
            elif parser.sees('implement', '!'):
                parser.at += 2
                parser.tree()
            else:
                raise Failure(f'{file.path}: line {begin}: an unknown item at {parser.peek()!r}')

    def use(self, file, parser, prefix):
        path = list(prefix)
        while True:
            if parser.sees('{'):
                inner = Parser(parser.tree())
                while inner.peek().kind != 'end':
                    self.use(file, inner, path)
                    inner.eat(',')
                return
            if parser.eat('*'):
                return
            path.append(parser.ident())
            if not parser.eat('::'):
                break
        file.imports[path[-1]] = path

    def declare(self, kind, file, name, begin, end):
        declaration = Declaration(kind, file, file.space, name, begin, end)
        if declaration.key in self.types:
            raise Failure(f'{file.path}: {name} is declared twice')
        self.types[declaration.key] = declaration
        self.order.append(declaration)
        return declaration

    def enumeration(self, file, parser, begin):
        name = parser.ident()
        inner = Parser(parser.tree())
        declaration = self.declare('enum', file, name, begin, parser.tokens[parser.at - 1].line)
        while inner.peek().kind != 'end':
            variant = inner.ident()
            inner.want('(')
            declaration.variants[variant] = inner.type()
            inner.want(')')
            inner.eat(',')

    def structure(self, file, parser, begin):
        name = parser.ident()
        generics = []
        if parser.eat('<'):
            while not parser.eat('>'):
                generics.append(parser.ident())
                parser.eat(',')
        inner = Parser(parser.tree())
        declaration = self.declare('struct', file, name, begin, parser.tokens[parser.at - 1].line)
        declaration.generics = generics
        while inner.peek().kind != 'end':
            inner.eat('pub')
            field = inner.ident()
            inner.want(':')
            declaration.fields.append((field, inner.type()))
            inner.eat(',')

    def table(self, file, parser, begin):
        inner = Parser(parser.tree(), file.macros)
        end = parser.tokens[parser.at - 1].line
        mode = None
        if inner.eat('@'):
            mode = inner.ident()
        while inner.eat('#'):
            inner.tree()
        inner.want('pub')
        name = inner.ident()
        declaration = self.declare('struct', file, name, begin, end)
        declaration.positional = True
        inner = Parser(inner.tree(), file.macros)
        steps = []
        while inner.peek().kind != 'end':
            field = inner.ident()
            inner.want('(')
            ty = inner.type()
            inner.want(')')
            declaration.fields.append((field, ty))
            constant, names, body = None, None, None
            if inner.eat('='):
                value = Parser(inner.tree())
                constant = value.expression()
            elif inner.eat('|'):
                names = []
                while not inner.eat('|'):
                    names.append(inner.next().text)
                    inner.eat(',')
                body = inner.block()
            steps.append((field, ty, constant, names, body))
            inner.eat(',')
        if mode == 'define':
            if any(step[2] or step[4] for step in steps):
                raise Failure(f'{file.path}: line {begin}: a body in @define')
            return
        if mode not in (None, 'position'):
            raise Failure(f'{file.path}: line {begin}: an unknown mode {mode}')
        reading = Reading(declaration, begin, end)
        reading.steps = steps
        reading.mode = mode
        self.attach(declaration, reading)

    def attach(self, declaration, reading):
        if declaration.read:
            raise Failure(f'{declaration.name} has two readers')
        declaration.read = reading
        self.readings.append(reading)

    def flags(self, file, parser, begin):
        inner = Parser(parser.tree())
        end = parser.tokens[parser.at - 1].line
        inner.want('pub')
        name = inner.ident()
        inner.want('(')
        inner.want('u16')
        inner.want(')')
        declaration = self.declare('flags', file, name, begin, end)
        inner = Parser(inner.tree())
        while inner.peek().kind != 'end':
            token = inner.next()
            inner.want('=>')
            declaration.masks.append((inner.ident(), token.text.replace('_', ''), token.line))
            inner.eat(',')

    def implementation(self, file, parser, begin):
        generics = []
        if parser.eat('<'):
            while not parser.eat('>'):
                generics.append(parser.ident())
                parser.eat(',')
        head = parser.type()
        if not parser.eat('for'):
            parser.tree()  # Methods other than readers.
            if (file.path, head[1][-1]) not in [item[:2] for item in methods.METHODS]:
                raise Failure(f'{file.path}: line {begin}: unknown methods')
            return
        target = parser.type()
        given = {}
        if parser.eat('where'):
            while not parser.sees('{'):
                name = parser.ident()
                parser.want(':')
                bound = parser.type()
                named = [item[1] for item in bound[2] if item[0] == 'named']
                given[name] = named[0]
                parser.eat(',')
        body = Parser(parser.tree(), dict(file.macros))
        end = parser.tokens[parser.at - 1].line
        declaration = self.types[file.space, target[1][-1]]
        trait = head[1][-2:]
        if trait[-1] == 'Default':
            self.default(declaration, body, begin, end)
            return
        if trait not in (['value', 'Read'], ['walue', 'Read']):
            raise Failure(f'{file.path}: line {begin}: an unknown trait {head}')
        reading = Reading(declaration, begin, end)
        reading.generics = {name: given[name] for name in generics}
        parameter = None
        if body.eat('type'):
            body.want('Parameter')
            body.want('=')
            parameter = body.type()
            body.want(';')
        while body.eat('#'):
            body.tree()
        body.want('fn')
        body.want('read')
        body.want('<')
        while not body.eat('>'):
            body.next()
        arguments = Parser(body.tree())
        body.want('->')
        body.type()
        arguments.want('tape')
        arguments.want(':')
        arguments.type()
        arguments.eat(',')
        if trait[0] == 'walue':
            reading.given = parameter
            types = parameter[1] if parameter[0] == 'tuple' else [parameter]
            pattern = arguments.pattern()
            names = [item.name for item in pattern.items] if pattern.kind == 'tuple' else [pattern.name]
            if len(names) != len(types):
                raise Failure(f'{file.path}: line {begin}: a mismatch of parameters')
            reading.parameters = list(zip(names, types))
        reading.body = body.block()
        self.attach(declaration, reading)

    def default(self, declaration, body, begin, end):
        while body.eat('#'):
            body.tree()
        body.want('fn')
        body.want('default')
        body.tree()
        body.want('->')
        body.type()
        declaration.default = (body.block(), begin, end)
        self.defaults.append(declaration)

    # Types

    def lookup(self, file, path):
        """The declaration meant by a path in a file."""
        name = path[-1]
        if len(path) == 1 and (file.space, name) in self.types:
            return self.types[file.space, name]
        whole = file.imports.get(path[0], [path[0]]) + path[1:]
        candidates = [self.types[key] for key in self.types if key[1] == name]
        if len(candidates) > 1:
            stems = {d.key: os.path.basename(d.file.path)[:-3] for d in candidates}
            candidates = [d for d in candidates if stems[d.key] in whole]
        if len(candidates) != 1 or whole == path[:1]:
            raise Failure(f'{file.path}: {"::".join(path)} is unknown or ambiguous')
        return candidates[0]

    def resolve(self, file, ty, scope=None):
        """The type meant by a piece of syntax in a file."""
        scope = scope or {}
        if ty[0] == 'tuple':
            return Ty('tuple', [self.resolve(file, item, scope) for item in ty[1]])
        if ty[0] == 'hole':
            return Var()
        path, items = ty[1], [self.resolve(file, item, scope) for item in ty[2]]
        name = path[-1]
        if len(path) == 1:
            if name in scope:
                return scope[name]
            if name in INTEGERS:
                return Ty(name)
            if name in ('Vec', 'Option', 'Result'):
                return Ty(name, items)
            if (file.space, name) not in self.types and name in ALIASES:
                return Ty(ALIASES[name])
        declaration = self.lookup(file, path)
        return Ty(declaration.name, items, declaration.key)

    def fields(self, ty):
        """The fields of a structure with their types."""
        declaration = self.types[ty.home]
        scope = dict(zip(declaration.generics, ty.items))
        return {name: self.resolve(declaration.file, inner, scope) for name, inner in declaration.fields}


# Types of expressions

class Typing:
    def __init__(self, world, file, owner, scope):
        self.world, self.file, self.owner, self.scope = world, file, owner, scope

    def type(self, node, env):
        node.ty = getattr(self, 'on_' + node.kind)(node, env)
        return node.ty

    def check(self, node, env, ty):
        unify(self.type(node, env), ty, node.line)

    def struct(self, path):
        if path == ['Self']:
            return self.owner
        declaration = self.world.lookup(self.file, path)
        if self.owner.home == declaration.key:
            return self.owner
        return Ty(declaration.name, [Var() for _ in declaration.generics], declaration.key)

    def on_number(self, node, env):
        return Var()

    def on_tuple(self, node, env):
        return Ty('tuple', [self.type(item, env) for item in node.items])

    def on_path(self, node, env):
        if node.path == ['None']:
            return option(Var())
        if len(node.path) == 1 and node.path[0] in env:
            return env[node.path[0]]
        raise Failure(f'line {node.line}: an unknown name {node.path}')

    def on_field(self, node, env):
        ty = find(self.type(node.inner, env))
        if isinstance(ty, Var):
            raise Failure(f'line {node.line}: a field of a value of an unknown type')
        if ty.name == 'this':
            return ty.fields[node.name]
        if ty.name == 'tuple':
            return ty.items[int(node.name)]
        if ty.home and self.world.types[ty.home].kind == 'flags' and node.name == '0':
            return Ty('u16')
        return self.world.fields(ty)[node.name]

    def on_index(self, node, env):
        item = Var()
        self.check(node.inner, env, vector(item))
        self.check(node.index, env, Ty('usize'))
        return item

    def on_unary(self, node, env):
        raise Failure(f'line {node.line}: an unknown operator {node.op}')

    def on_cast(self, node, env):
        self.type(node.inner, env)
        return self.world.resolve(self.file, node.to)

    def on_binary(self, node, env):
        left, right = self.type(node.left, env), self.type(node.right, env)
        if node.op in ('||', '&&'):
            unify(left, Ty('bool'), node.line)
            unify(right, Ty('bool'), node.line)
            return left
        if node.op in ('<<', '>>'):
            return left
        unify(left, right, node.line)
        if node.op in ('==', '!=', '<', '>', '<=', '>='):
            return Ty('bool')
        return left

    def on_try(self, node, env):
        ty = Var()
        self.check(node.inner, env, result(ty))
        return ty

    def on_call(self, node, env):
        if node.path == ['Ok']:
            return result(self.type(node.items[0], env))
        if node.path == ['Some']:
            return option(self.type(node.items[0], env))
        if len(node.path) == 2:
            ty = self.struct(node.path[:1])
            declaration = self.world.types[ty.home]
            if node.path[1] == 'default' and not node.items:
                return ty
            payload = self.world.resolve(declaration.file, declaration.variants[node.path[1]])
            self.check(node.items[0], env, payload)
            return ty
        raise Failure(f'line {node.line}: an unknown function {node.path}')

    def on_method(self, node, env):
        if node.inner.kind == 'path' and node.inner.path == ['tape']:
            return self.on_tape(node, env)
        if node.name == 'map' and node.inner.kind == 'range':
            count = Var()
            self.check(node.inner.start, env, count)
            self.check(node.inner.end, env, count)
            closure = node.items[0]
            inner = dict(env)
            if closure.names != ['_']:
                inner[closure.names[0]] = count
            return Ty('iterator', [self.type(closure.body, inner)])
        if node.name == 'collect':
            item = Var()
            self.check(node.inner, env, Ty('iterator', [result(item)]))
            ty = result(vector(item))
            if node.types:
                unify(ty, self.world.resolve(self.file, node.types[0]), node.line)
            return ty
        if node.name == 'unwrap_or_default':
            item = Var()
            self.check(node.inner, env, option(item))
            return item
        ty = find(self.type(node.inner, env))
        if ty.home and self.world.types[ty.home].kind == 'flags':
            if node.name not in [name for name, _, _ in self.world.types[ty.home].masks]:
                raise Failure(f'line {node.line}: an unknown flag {node.name}')
            return Ty('bool')
        raise Failure(f'line {node.line}: an unknown method {node.name}')

    def on_tape(self, node, env):
        name, items = node.name, node.items
        if name == 'position':
            return result(Ty('u64'))
        if name in ('take', 'peek'):
            return result(self.world.resolve(self.file, node.types[0]) if node.types else Var())
        if name == 'take_given':
            self.type(items[0], env)
            return result(Var())
        if name == 'take_bytes':
            self.check(items[0], env, Ty('usize'))
            return result(vector(Ty('u8')))
        if name == 'jump':
            self.check(items[0], env, Ty('u64'))
            return result(UNIT)
        if name == 'stay':
            if items[0].names != ['tape']:
                raise Failure(f'line {node.line}: an unknown closure')
            ty = result(Var())
            self.check(items[0].body, env, ty)
            return ty
        raise Failure(f'line {node.line}: an unknown operation {name}')

    def on_macro(self, node, env):
        if node.name == 'raise':
            names = re.findall(r'\{(\w+)(?::\?)?\}', node.items[0].value)
            node.names = [(name, env[name]) for name in names]
            return Var()
        if node.name == 'vec' and not node.items:
            return vector(Var())
        items = node.items
        if not (items[0].kind == 'path' and items[0].path == ['tape']):
            raise Failure(f'line {node.line}: an unknown tape')
        given = node.name == 'jump_take_given'
        many = len(items) - given == 4
        if len(items) - given not in (3, 4):
            raise Failure(f'line {node.line}: a wrong number of arguments')
        self.check(items[1], env, Ty('u64'))
        if many:
            self.type(items[2], env)
            if items[3].kind == 'closure':
                self.type(items[3].body, {**env, items[3].names[0]: Ty('usize')})
            else:
                self.check(items[3], env, vector(Var()))
        else:
            self.type(items[2], env)
        if given:
            self.type(items[-1], env)
        node.read = Var()
        ty = option(node.read) if node.name == 'jump_take_maybe' else node.read
        ty = vector(ty) if many else ty
        return ty if node.unwrap else result(ty)

    def on_struct(self, node, env):
        ty = self.struct(node.path)
        fields = self.world.fields(ty)
        if sorted(fields) != sorted(name for name, _ in node.fields):
            raise Failure(f'line {node.line}: the fields are not those of the structure')
        for name, value in node.fields:
            self.check(value, env, fields[name])
        return ty

    def on_if(self, node, env):
        self.check(node.condition, env, Ty('bool'))
        ty = self.type(node.then, env)
        if node.other:
            self.check(node.other, env, ty)
        else:
            unify(ty, UNIT, node.line)
        return ty

    def on_match(self, node, env):
        value, ty = self.type(node.value, env), Var()
        for pattern, body in node.arms:
            inner = dict(env)
            self.pattern(pattern, value, inner)
            self.check(body, inner, ty)
        return ty

    def pattern(self, node, ty, env):
        if node.kind == 'bind':
            env[node.name] = ty
        elif node.kind == 'tuple':
            items = [Var() for _ in node.items]
            unify(ty, Ty('tuple', items), node.line)
            for item, inner in zip(node.items, items):
                self.pattern(item, inner, env)
        elif node.kind == 'variant':
            if node.path == ['Some']:
                inner = Var()
                unify(ty, option(inner), node.line)
                self.pattern(node.items[0], inner, env)
            elif node.path == ['None']:
                unify(ty, option(Var()), node.line)
            else:
                owner = self.struct(node.path[:1])
                unify(ty, owner, node.line)
                declaration = self.world.types[owner.home]
                payload = self.world.resolve(declaration.file, declaration.variants[node.path[1]])
                self.pattern(node.items[0], payload, env)
        elif node.kind == 'or':
            for item in node.items:
                self.pattern(item, ty, env)
        elif node.kind not in ('any', 'number', 'between'):
            raise Failure(f'line {node.line}: an unknown pattern {node.kind}')

    def on_block(self, node, env):
        env, shared = dict(env), None
        for item in node.items:
            if item.kind == 'let':
                ty = self.world.resolve(self.file, item.annotation) if item.annotation else Var()
                if item.condition and shared is not None:  # The other value of the feature.
                    unify(ty, shared, item.line)
                    shared = None
                elif item.condition:
                    shared = ty
                self.check(item.value, env, ty)
                self.pattern(item.pattern, ty, env)
            elif item.kind == 'assign':
                self.check(item.value, env, env[item.name])
            else:
                self.type(item.value, env)
        if node.tail:
            return self.type(node.tail, env)
        last = node.items[-1].value if node.items else None
        if last is not None and last.kind == 'macro' and last.name == 'raise':
            return Var()
        return UNIT

    def on_range(self, node, env):
        raise Failure(f'line {node.line}: a range')

    on_closure = on_range


# Code

class Block:
    """A sequence of steps: ('bind', pattern, term), ('let', pattern, value), ('run', term), ('return', value) and
    ('end', term)."""

    def __init__(self, steps=()):
        self.steps = list(steps)

    def finish(self, value):
        """Add `return value`, where `let x ← term; return x` is `term`."""
        last = self.steps[-1] if self.steps else None
        if last and last[0] == 'bind' and last[1] == value:
            self.steps[-1] = ('end', last[2])
        else:
            self.steps.append(('return', value))
        return self


class Code:
    """The code of one reader."""

    def __init__(self, world, file):
        self.world, self.file = world, file
        self.count = 0
        self.uses = set()
        self.configured = False

    def fresh(self):
        self.count += 1
        return f't{self.count}'

    # Readers of types

    def reader(self, ty, given, line):
        """The reader of a type, as a term."""
        ty = find(ty)
        if isinstance(ty, Var):
            raise Failure(f'line {line}: a value of an unknown type is read')
        if given is not None and ty.name == 'Vec':
            if find(given.ty).name != 'usize':
                raise Failure(f'line {line}: a vector is given a {given.ty}')
            return ('call', 'takeVec', [self.reader(ty.items[0], None, line), self.pure(given)])
        if ty.name == 'tuple' and given is None:
            block, names = Block(), []
            for item in ty.items:
                names.append(self.fresh())
                block.steps.append(('bind', names[-1], self.reader(item, None, line)))
            return block.finish(f'({", ".join(names)})')
        if ty.home is None and given is None and ty.name in READERS:
            return ('call', READERS[ty.name], [])
        if ty.name in self.generics and given is not None:
            unify(self.generics[ty.name], given.ty, line)
            return ('call', f'read{ty.name}', self.arguments(given))
        declaration = self.world.types.get(ty.home)
        if not declaration or not (declaration.read or declaration.kind == 'flags'):
            raise Failure(f'line {line}: {ty!r} has no reader')
        self.uses.add(declaration.key)
        arguments = [('configuration', declaration.key)]
        reading = declaration.read
        if reading and (reading.given is None) != (given is None):
            raise Failure(f'line {line}: {ty!r} is read with a wrong number of parameters')
        if reading and reading.given is not None:
            unify(self.world.resolve(declaration.file, reading.given), given.ty, line)
            arguments += self.arguments(given)
        for name, item in zip(declaration.generics, ty.items):
            arguments.append(('call', f'read{find(item).name}', []))
        return ('call', qualify(self.file.space, declaration) + '.read', arguments)

    def arguments(self, given):
        if given.kind == 'tuple':
            return [self.pure(item) for item in given.items]
        return [self.pure(given)]

    # Values

    def pure(self, node):
        """A value that needs no steps."""
        block = Block()
        value = self.value(node, block)
        if block.steps:
            raise Failure(f'line {node.line}: a value is not pure')
        return value

    def value(self, node, block):
        """A value, after adding the steps that give it."""
        return getattr(self, 'on_' + node.kind)(node, block)

    def on_number(self, node, block):
        return str(node.value)

    def on_tuple(self, node, block):
        return f'({", ".join(self.value(item, block) for item in node.items)})'

    def on_path(self, node, block):
        return 'none' if node.path == ['None'] else lean(node.path[0])

    def on_field(self, node, block):
        ty = find(node.inner.ty)
        if ty.name == 'this':
            return lean(node.name)
        inner = self.value(node.inner, block)
        if ty.name == 'tuple':
            return f'{inner}{".2" * int(node.name)}{"" if int(node.name) == len(ty.items) - 1 else ".1"}'
        if ty.home and self.world.types[ty.home].kind == 'flags':
            return inner
        return f'{inner}.{lean(node.name)}'

    def on_index(self, node, block):
        inner, index = self.value(node.inner, block), self.value(node.index, block)
        name = self.fresh()
        block.steps.append(('bind', name, ('call', 'index', [inner, index])))
        return name

    def on_cast(self, node, block):
        start, end = find(node.inner.ty), find(node.ty)
        if not isinstance(start, Var):
            if start.name not in INTEGERS or end.name not in INTEGERS or INTEGERS[start.name] > INTEGERS[end.name]:
                raise Failure(f'line {node.line}: a cast from {start!r} to {end!r}')
        return self.value(node.inner, block)

    def on_binary(self, node, block):
        ty = find(node.left.ty)
        if node.op in ('||', '&&'):
            left, right = self.pure(node.left), self.pure(node.right)
            return f'({left} {"∨" if node.op == "||" else "∧"} {right})'
        left, right = self.value(node.left, block), self.value(node.right, block)
        if node.op in ('==', '!=', '<', '>', '<=', '>='):
            sign = {'==': '=', '!=': '≠', '<=': '≤', '>=': '≥'}.get(node.op, node.op)
            return f'({left} {sign} {right})'
        if node.op in ('<<', '>>', '%'):
            if isinstance(ty, Var) or ty.name != 'usize':
                raise Failure(f'line {node.line}: {node.op} of {ty!r}')
            return f'({left} {dict([("<<", "<<<"), (">>", ">>>")]).get(node.op, node.op)} {right})'
        return self.arithmetic(node.op, ty, left, right, block, node.line)

    def arithmetic(self, op, ty, left, right, block, line):
        name = self.fresh()
        if op == '-' and ty.name in INTEGERS:
            term = ('call', 'subUint', [left, right])
        elif op in '+*' and ty.name in ('u64', 'usize'):
            term = ('call', ('add' if op == '+' else 'mul') + ty.name.capitalize(), [left, right])
        elif op == '+' and ty.name == 'u16':
            self.configured = True
            term = ('call', 'item.addU16', ['cfg', left, right])
        else:
            raise Failure(f'line {line}: {op} of {ty!r}')
        block.steps.append(('bind', name, term))
        return name

    def on_try(self, node, block):
        term = self.term(node.inner)
        if isinstance(term, Block):  # The steps run in place.
            block.steps += term.steps[:-1]
            last = term.steps[-1]
            if last[0] == 'return':
                return last[1]
            term = last[1]
        name = self.fresh()
        block.steps.append(('bind', name, term))
        return name

    def on_call(self, node, block):
        if node.path == ['Some']:
            return f'(some {self.value(node.items[0], block)})'
        if len(node.path) == 2:
            declaration = self.world.types[find(node.ty).home]
            if node.path[1] == 'default':
                return self.default(node.ty)
            return f'(.{constructor(node.path[1])} {self.value(node.items[0], block)})'
        raise Failure(f'line {node.line}: a result as a value')

    def default(self, ty):
        """The value of `Default`."""
        ty = find(ty)
        if ty.name in INTEGERS or ty.name in ('i16', 'q32', 'Tag', 'NameID'):
            return '0'
        if ty.name == 'Vec':
            return '[]'
        if ty.name == 'Option':
            return 'none'
        declaration = self.world.types[ty.home]
        if declaration.default:
            self.uses.add(declaration.key + ('default',))
            return f'({qualify(self.file.space, declaration)}.default)'
        if declaration.kind == 'flags':
            return '0'
        if not declaration.positional:
            raise Failure(f'{ty!r} has no default')
        fields = self.world.fields(ty)
        return f'{{ {", ".join(f"{lean(name)} := {self.default(inner)}" for name, inner in fields.items())} }}'

    def on_method(self, node, block):
        if node.name == 'unwrap_or_default':
            return f'({self.value(node.inner, block)}.getD {self.default(node.ty)})'
        ty = find(node.inner.ty)
        if ty.home and self.world.types[ty.home].kind == 'flags':
            declaration = self.world.types[ty.home]
            self.uses.add(declaration.key)
            return f'({qualify(self.file.space, declaration)}.{node.name} {self.value(node.inner, block)} = true)'
        raise Failure(f'line {node.line}: {node.name} as a value')

    def on_macro(self, node, block):
        if node.name == 'vec':
            return '[]'
        name = '()' if find(node.ty) is UNIT else self.fresh()
        if node.name != 'raise' and not node.unwrap:
            raise Failure(f'line {node.line}: a result as a value')
        block.steps.append(('bind', name, self.invocation(node)))
        return name

    def on_struct(self, node, block):
        values = [(lean(name), self.value(value, block)) for name, value in node.fields]
        return f'{{ {", ".join(name if name == value else f"{name} := {value}" for name, value in values)} }}'

    def on_if(self, node, block):
        return self.choice(node, block)

    def on_match(self, node, block):
        return self.choice(node, block)

    def choice(self, node, block):
        """A conditional as a value: a term if any of its branches needs steps."""
        count = self.count
        term = self.select(node, lambda body: self.block(body, Block()))
        values = []

        def collect(part):
            if isinstance(part, Block):
                values.append(len(part.steps) == 1 and part.steps[0][0] == 'return')
            elif part[0] == 'if':
                collect(part[2]), collect(part[3])
            elif part[0] == 'match':
                [collect(body) for _, body in part[2]]
            else:
                values.append(False)
        collect(term)
        if all(values):
            return '(' + self.show(self.strip(term)) + ')'
        name = self.fresh()
        block.steps.append(('bind', name, term))
        return name

    def strip(self, term):
        if isinstance(term, Block):
            return ('call', term.steps[0][1], [])
        if term[0] == 'if':
            return ('if', term[1], self.strip(term[2]), self.strip(term[3]))
        return ('match', term[1], [(pattern, self.strip(body)) for pattern, body in term[2]])

    def show(self, term):
        return '\n'.join(show(term, self.world, 6))

    def on_block(self, node, block):
        raise Failure(f'line {node.line}: a block as a value')

    on_range = on_closure = on_unary = on_block

    # Conditionals

    def select(self, node, body):
        """A conditional as a term, given how to translate its branches."""
        if node.kind == 'if':
            other = Block([('return', '()')]) if node.other is None else body(node.other)
            return ('if', self.pure(node.condition), body(node.then), other)
        value = node.value
        steps = Block()
        text = self.value(value, steps)
        kinds = [pattern.kind for pattern, _ in node.arms]
        if all(kind in ('number', 'any', 'bind', 'variant') for kind in kinds):
            arms = [(self.pattern(pattern), body(inner)) for pattern, inner in node.arms]
            if [pattern.path for pattern, _ in node.arms if pattern.kind == 'variant'] == [['Some']]:
                arms = [('none' if name == '_' else name, inner) for name, inner in arms]  # All that remains.
            term = ('match', text, arms)
        else:
            term = None
            for pattern, inner in reversed(node.arms):
                inner = body(inner)
                if pattern.kind == 'bind':
                    inner = inner if pattern.name == text else Block([('let', pattern.name, text)] + inner.steps)
                if pattern.kind in ('any', 'bind'):
                    if term is not None:
                        raise Failure(f'line {node.line}: an unreachable arm')
                    term = inner
                else:
                    if term is None:
                        raise Failure(f'line {node.line}: the last arm is not for all values')
                    term = ('if', self.test(pattern, text), inner, term)
        if not steps.steps:
            return term
        steps.steps.append(('end', term))
        return steps

    def test(self, node, text):
        if node.kind == 'number':
            return f'{text} = {node.value}'
        if node.kind == 'between':
            return f'{node.start.value} ≤ {text} ∧ {text} ≤ {node.end.value}'
        if node.kind == 'tuple' and all(item.kind == 'number' for item in node.items):
            return f'{text} = ({", ".join(str(item.value) for item in node.items)})'
        if node.kind == 'or':
            return ' ∨ '.join(self.test(item, text) for item in node.items)
        raise Failure(f'line {node.line}: an unknown pattern {node.kind}')

    def pattern(self, node):
        if node.kind == 'any':
            return '_'
        if node.kind == 'bind':
            return lean(node.name)
        if node.kind == 'number':
            return str(node.value)
        if node.kind == 'tuple':
            return f'({", ".join(map(self.pattern, node.items))})'
        name = {'Some': 'some', 'None': 'none'}.get(node.path[-1]) or f'.{constructor(node.path[-1])}'
        return ' '.join([name] + [self.pattern(item) for item in node.items])

    # Terms

    def term(self, node):
        """A result as a term."""
        if node.kind == 'call' and node.path == ['Ok']:
            block = Block()
            return block.finish(self.value(node.items[0], block))
        if node.kind == 'block':
            return self.block(node, Block(), results=True)
        if node.kind in ('if', 'match'):
            return self.select(node, self.term)
        if node.kind == 'method':
            return self.operation(node)
        if node.kind == 'macro':
            block = Block()
            if node.unwrap:
                raise Failure(f'line {node.line}: a value as a result')
            return self.prefix(block, self.invocation(node, block))
        raise Failure(f'line {node.line}: {node.kind} as a result')

    @staticmethod
    def prefix(block, term):
        if not block.steps:
            return term
        block.steps.append(('end', term))
        return block

    def operation(self, node):
        block, ty = Block(), find(node.ty)
        if node.inner.kind == 'path' and node.inner.path == ['tape']:
            name = node.name
            if name == 'position':
                term = ('call', 'position', [])
            elif name == 'take':
                term = self.reader(ty.items[0], None, node.line)
            elif name == 'take_given':
                given = self.settled(node.items[0], block)
                term = self.reader(ty.items[0], given, node.line)
            elif name == 'take_bytes':
                term = ('call', 'takeBytes', [self.value(node.items[0], block)])
            elif name == 'peek':
                term = ('call', 'peek', [self.reader(ty.items[0], None, node.line)])
            elif name == 'jump':
                term = ('call', 'jump', [self.value(node.items[0], block)])
            else:
                term = ('call', 'stay', [self.term(node.items[0].body)])
            return self.prefix(block, term)
        if node.name == 'collect':
            mapping = node.inner
            bounds, closure = mapping.inner, mapping.items[0]
            if bounds.start.kind != 'number' or bounds.start.value != 0:
                raise Failure(f'line {node.line}: a range that does not start at zero')
            count = self.value(bounds.end, block)
            body = self.term(closure.body)
            if closure.names == ['_']:
                return self.prefix(block, ('call', 'takeVec', [body, count]))
            return self.prefix(block, ('call', 'forFrom', [('function', lean(closure.names[0]), body), '0', count]))
        raise Failure(f'line {node.line}: {node.name} as a result')

    def settled(self, node, block):
        """A parameter whose components need no steps."""
        if node.kind == 'tuple':
            items = [self.settled(item, block) for item in node.items]
            settled = Node('tuple', node.line, items=items)
        else:
            settled = Node('path', node.line, path=[self.value(node, block)], types=None)
        settled.ty = node.ty
        return settled

    def invocation(self, node, block=None):
        if node.name == 'raise':
            return self.failure(node)
        block = block if block is not None else Block()
        items = node.items
        base = self.value(items[1], block)
        given = self.settled(items[-1], block) if node.name == 'jump_take_given' else None
        reader = self.reader(node.read, given, node.line)
        many = len(items) - (given is not None) == 4
        maybe = node.name == 'jump_take_maybe'
        if not many:
            offset = self.value(items[2], block)
            return ('call', 'jumpTakeMaybe' if maybe else 'jumpTake', [base, offset, reader])
        count = self.value(items[2], block)
        if items[3].kind == 'closure':
            name, body = lean(items[3].names[0]), Block()
            offset = self.value(items[3].body, body)
            body.steps.append(('end', ('call', 'jumpTakeMaybe' if maybe else 'jumpTake', [base, offset, reader])))
            return ('call', 'forFrom', [('function', name, body), '0', count])
        offsets = self.value(items[3], block)
        return ('call', 'jumpTakeMaybeN' if maybe else 'jumpTakeN', [base, count, offsets, reader])

    def failure(self, node):
        text, names = node.items[0].value, []
        for name, ty in node.names:
            ty = find(ty)
            if ty.name == 'tuple':
                names += [f'{lean(name)}{".2" * i}{"" if i == len(ty.items) - 1 else ".1"}' for i in range(len(ty.items))]
            elif ty.name in INTEGERS:
                names.append(lean(name))
            else:
                raise Failure(f'line {node.line}: {ty!r} in a message')
        if re.search(r'\{\}|\{:', text) or len(node.items) != 1:
            raise Failure(f'line {node.line}: an unknown format')
        text = re.sub(r' \(?\{\w+(:\?)?\}\)?', '', text)
        return ('raise', text, names)

    # Blocks

    def block(self, node, block, results=False):
        if node.kind != 'block':
            return block.finish(self.value(node, block))
        items = list(node.items)
        while items:
            item = items.pop(0)
            if item.condition:
                other = items.pop(0)
                self.conditional(item, other, block)
                continue
            self.statement(item, block)
        if node.tail:
            if results:
                term = self.term(node.tail)
                if isinstance(term, Block):
                    block.steps += term.steps
                    return block
                return self.prefix(block, term)
            return block.finish(self.value(node.tail, block))
        last = block.steps[-1] if block.steps else None
        if last and last[0] in ('bind', 'run') and not isinstance(last[-1], Block) and last[-1][0] == 'raise':
            block.steps[-1] = ('end', last[-1])
            return block
        return block.finish('()')

    def conditional(self, item, other, block):
        """Two `let` for the two values of a feature."""
        if other.kind != 'let' or item.kind != 'let' or not other.condition:
            raise Failure(f'line {item.line}: an unknown conditional')
        if other.condition[0] != item.condition[0] or other.condition[1] == item.condition[1]:
            raise Failure(f'line {item.line}: an unknown conditional')
        on, off = (item, other) if item.condition[1] else (other, item)
        on_block, off_block = Block(), Block()
        on_block.finish(self.value(on.value, on_block))
        off_block.finish(self.value(off.value, off_block))
        if self.pattern(on.pattern) != self.pattern(off.pattern):
            raise Failure(f'line {item.line}: an unknown conditional')
        self.configured = True
        term = ('if', f'cfg.{FEATURES[item.condition[0]]} = true', on_block, off_block)
        block.steps.append(('bind', self.pattern(on.pattern), term))

    def statement(self, item, block):
        if item.kind == 'let':
            value = self.value(item.value, block)
            pattern = self.pattern(item.pattern)
            last = block.steps[-1] if block.steps else None
            if last and last[0] == 'bind' and last[1] == value and re.fullmatch(r't\d+', value):
                block.steps[-1] = ('bind', pattern, last[2])
            elif pattern != value:
                block.steps.append(('let', pattern, value))
        elif item.kind == 'assign':
            value = self.value(item.value, block)
            term = self.arithmetic('+', find(item.value.ty), lean(item.name), value, block, item.line)
            last = block.steps.pop()
            block.steps.append(('bind', lean(item.name), last[2]))
        elif item.value.kind in ('if', 'match'):
            term = self.select(item.value, lambda body: self.block(body, Block()))
            block.steps.append(('run', term))
        else:
            value = self.value(item.value, block)
            last = block.steps[-1]
            if last[0] != 'bind' or last[1] != value:
                raise Failure(f'line {item.line}: a statement without effect')
            block.steps[-1] = ('run', last[2])


def qualify(space, declaration):
    name = lean(declaration.name)
    return name if declaration.space == space else f'Generated.{declaration.space}.{name}'


# Text

def show(term, world, indent, head=''):
    """The lines of a term, the first one without its indentation."""
    pad = ' ' * indent
    if isinstance(term, Block):
        if len(term.steps) == 1 and term.steps[0][0] == 'end':
            return show(term.steps[0][1], world, indent)
        if len(term.steps) == 1 and term.steps[0][0] == 'return':
            return [f'pure {term.steps[0][1]}']
        return ['do'] + steps(term, world, indent)
    if term[0] == 'raise':
        if term[2]:
            names = term[2]
            return [f'raise ⟨{term[1]}, [{", ".join(names)}]⟩']
        return [f'raise {term[1]}']
    if term[0] == 'if':
        if isinstance(term[2], Block) and len(term[2].steps) == 1 and term[2].steps[0][0] == 'end' \
                and term[2].steps[0][1][0] == 'raise' and isinstance(term[3], Block) \
                and term[3].steps == [('return', '()')]:
            message = show(term[2].steps[0][1], world, indent)[0].removeprefix('raise ')
            return [f'raiseIf ({term[1].removeprefix("(").removesuffix(")") if term[1].startswith("(") and balanced(term[1]) else term[1]}) {message}']
        lines = [f'if {term[1]} then']
        lines += put(show(term[2], world, indent + 2), pad + '  ')
        lines += [pad + 'else']
        return lines + put(show(term[3], world, indent + 2), pad + '  ')
    if term[0] == 'match':
        lines = [f'match {term[1]} with']
        for pattern, body in term[2]:
            body = show(body, world, indent + 2)
            lines += [f'{pad}| {pattern} => {body[0]}'] + body[1:]
        return lines
    if term[0] == 'function':
        body = show(term[2], world, indent)
        return [f'fun {term[1]} => {body[0]}'] + body[1:]
    if term[0] == 'configuration':
        return ['cfg'] if world.configured(term[1]) else []
    lines = [term[1]]
    for item in term[2]:
        inner = [item] if isinstance(item, str) else show(item, world, indent)
        if not inner:
            continue
        if len(inner) > 1 or (' ' in inner[0] and not (inner[0][0] in '([{' and balanced(inner[0]))):
            inner[0] = '(' + inner[0]
            inner[-1] += ')'
        lines[-1] += ' ' + inner[0]
        lines += inner[1:]
    return lines


def balanced(text):
    """Whether the first bracket is closed by the last one."""
    depth = 0
    for i, char in enumerate(text):
        depth += (char in '([{') - (char in ')]}')
        if depth == 0:
            return i == len(text) - 1
    return False


def put(lines, pad):
    return [pad + lines[0]] + lines[1:]


def steps(block, world, indent):
    pad, lines = ' ' * (indent + 2), []
    for step in block.steps:
        if step[0] == 'bind':
            inner = show(step[2], world, indent + 4)
            if len(inner) > 1 and inner[0] != 'do':
                if inner[0].startswith(('if ', 'match ')):
                    inner[0] = '(' + inner[0]
                    inner[-1] += ')'
                lines += [f'{pad}let {step[1]} ←'] + put(inner, pad + '  ')
            else:
                lines += [f'{pad}let {step[1]} ← {inner[0]}'] + inner[1:]
        elif step[0] == 'let':
            lines += (f'{pad}let {step[1]} := {step[2]}').split('\n')
        elif step[0] == 'run':
            inner = show(step[1], world, indent + 2)
            if len(inner) > 1:
                inner[0] = '(' + inner[0]
                inner[-1] += ')'
            lines += put(inner, pad)
        elif step[0] == 'return':
            lines += [f'{pad}{"return" if indent == 0 else "pure"} {step[1]}']
        else:
            lines += put(show(step[1], world, indent + 2), pad)
    return lines


# Translation

def translate(world, reading):
    declaration = reading.owner
    file = declaration.file
    scope = {name: Ty(name) for name in reading.generics}
    owner = Ty(declaration.name, list(scope.values()), declaration.key)
    typing, code = Typing(world, file, owner, scope), Code(world, file)
    code.generics = {name: world.resolve(file, ty) for name, ty in reading.generics.items()}
    if reading.steps is None:
        env = {name: world.resolve(file, ty) for name, ty in reading.parameters}
        typing.check(reading.body, env, result(owner))
        reading.block = code.block(reading.body, Block(), results=True)
    else:
        block, this = Block(), Ty('this')
        this.fields = {}
        if reading.mode == 'position':
            block.steps.append(('bind', 'position', ('call', 'position', [])))
        for name, syntax, constant, names, body in reading.steps:
            ty = world.resolve(file, syntax)
            if body is not None:
                if names[:2] != ['this', 'tape'] or len(names) != (3 if reading.mode == 'position' else 2):
                    raise Failure(f'{file.path}: line {body.line}: unknown parameters {names}')
                env = {'this': this}
                if names[2:] == ['position']:
                    env['position'] = Ty('u64')
                typing.check(body, env, result(ty))
                term = code.block(body, Block(), results=True)
                if isinstance(term, Block) and len(term.steps) > 1:
                    # The body runs in place, its last step gives the field.
                    last = term.steps.pop()
                    if last[0] == 'end' and all(step[0] in ('bind', 'run', 'let') for step in term.steps):
                        block.steps += term.steps
                        term = last[1]
                    else:
                        raise Failure(f'{file.path}: line {body.line}: an unknown body')
            elif constant is not None:
                if ty.name != 'u16':
                    raise Failure(f'{file.path}: a constant of type {ty!r}')
                term = ('call', 'expectU16', [str(constant.value)])
            else:
                term = code.reader(ty, None, reading.begin)
            block.steps.append(('bind', lean(name), term))
            this.fields[name] = ty
        names = [lean(name) for name, *_ in reading.steps]
        block.steps.append(('return', f'{{ {", ".join(names)} }}'))
        reading.block = block
    reading.code = code


def configured(self, key):
    """Whether a reader depends on the configuration."""
    if key not in self.settings:
        declaration = self.types[key]
        if declaration.kind == 'flags':
            self.settings[key] = True
        else:
            code = declaration.read.code
            self.settings[key] = code.configured or any(
                self.configured(inner) for inner in code.uses
                if len(inner) == 2 and (self.types[inner].read or self.reads_flags(declaration, inner)))
    return self.settings[key]


def reads_flags(self, declaration, key):
    """Whether the flags are read rather than only asked."""
    def visit(part):
        if isinstance(part, Block):
            return any(visit(item) for step in part.steps for item in step[1:])
        if isinstance(part, tuple) and part and part[0] == 'configuration':
            return part[1] == key
        if isinstance(part, (tuple, list)):
            return any(visit(item) for item in part)
        return False
    return visit(declaration.read.block)


World.configured = configured
World.reads_flags = reads_flags

LEAN_TYPES = {'i16': 'Int', 'q32': 'Int', 'Tag': 'Tag'}


def lean_type(world, space, ty):
    ty = find(ty)
    if ty.name in INTEGERS or ty.name == 'NameID':
        return 'Nat'
    if ty.name in LEAN_TYPES:
        return LEAN_TYPES[ty.name]
    declaration = world.types.get(ty.home)
    if declaration and declaration.kind == 'flags':
        return 'Nat'
    raise Failure(f'{ty!r} as a parameter')


# The proofs other than by computation.
PROOFS = {
    'directory.Directory.read': """by
  funext U cfg readU
  have lawful := Reader.lawful
  unfold Directory.read OpenType.directory.Directory.read directory.part directory.variationOffset raiseIf
  simp only [Generated.feature.Features.read_eq, Generated.feature.Variations.read_eq,
    Generated.lookup.Lookups.default_eq, Generated.lookup.Lookups.read_eq, Generated.script.Scripts.read_eq, ite_not]
  cases cfg.ignoreIncompleteDirectories <;> simp only [Bool.false_eq_true, if_true, if_false, bind_assoc, pure_bind] <;>
    rfl""",
}


def main(source, target):
    world = World(source)
    world.settings = {}
    for reading in world.readings:
        try:
            translate(world, reading)
        except Failure as failure:
            raise Failure(f'{reading.owner.file.path}: {failure}') from None
    modules = {name: [] for name in MODULES}
    done, listed = set(), []

    def default(declaration):
        key = declaration.key + ('default',)
        if key in done:
            return
        done.add(key)
        body, begin, end = declaration.default
        file = declaration.file
        owner = Ty(declaration.name, [Ty(name) for name in declaration.generics], declaration.key)
        code = Code(world, file)
        code.generics = {}
        Typing(world, file, owner, {}).check(body, {}, owner)
        value = code.pure(body.tail)
        for use in code.uses:
            if len(use) == 3:
                default(world.types[use[:2]])
        name = lean(declaration.name)
        head, ty = f'{name}.default', f'{declaration.space}.{name}'
        for generic in declaration.generics:
            head, ty = f'{head} {{{generic} : Type}}', f'{ty} {generic}'
        listed.append((file, declaration, f'{name}.default', begin, end, [f'def {head} : {ty} := {value}'], ''))

    def flags(declaration):
        if declaration.key in done:
            return
        done.add(declaration.key)
        file, name = declaration.file, lean(declaration.name)
        for flag, mask, line in declaration.masks:
            listed.append((file, declaration, f'{name}.{flag}', line, line,
                           [f'def {name}.{flag} (flags : Nat) : Bool := flag flags {mask}'], 'flag'))
        mask = dict((flag, mask) for flag, mask, _ in declaration.masks)['is_invalid']
        listed.append((file, declaration, f'{name}.read', declaration.begin, declaration.end,
                       [f'def {name}.read (cfg : Cfg) : Reader Nat := flagsU16 cfg {mask}'], 'flags'))

    def read(declaration):
        if declaration.key in done:
            return
        if declaration.kind == 'flags':
            return flags(declaration)
        if not declaration.read:
            return
        done.add(declaration.key)
        reading, file, name = declaration.read, declaration.file, lean(declaration.name)
        for use in sorted(reading.code.uses):
            if len(use) == 3:
                default(world.types[use[:2]])
            else:
                read(world.types[use])
        parameters = ''
        ty = f'{declaration.space}.{name}'
        for generic in reading.generics:
            parameters += f' {{{generic} : Type}}'
            ty = f'({ty} {generic})'
        if world.configured(declaration.key):
            parameters += ' (cfg : Cfg)'
        for generic, inner in reading.generics.items():
            inner = lean_type(world, declaration.space, world.resolve(file, inner))
            parameters += f' (read{generic} : {inner} → Reader {generic})'
        for parameter, inner in reading.parameters:
            inner = lean_type(world, declaration.space, world.resolve(file, inner))
            parameters += f' ({lean(parameter)} : {inner})'
        block = reading.block
        body = show(block if isinstance(block, Block) else Block([('end', block)]), world, 0)
        lines = [f'def {name}.read{parameters} : Reader {ty} :=' + (' do' if body[0] == 'do' else '')]
        lines += body[1:] if body[0] == 'do' else ['  ' + line for line in body]
        listed.append((file, declaration, f'{name}.read', reading.begin, reading.end, lines, 'read'))

    for declaration in world.order:
        if declaration.default and declaration.kind == 'enum':
            default(declaration)
        read(declaration)

    for (space, name), (file, syntax, begin) in world.aliases.items():
        ty = world.resolve(file, syntax)
        declaration, (item,) = world.types[ty.home], ty.items
        inner = world.types[item.home]
        text = f'def {name}.read (cfg : Cfg) : Reader {space}.{name} :='
        configuration = ' cfg' if world.configured(inner.key) else ''
        if not world.configured(declaration.key):
            raise Failure(f'{file.path}: an unknown alias {name}')
        argument = f'{qualify(space, inner)}.read{configuration}'
        argument = f'({argument})' if ' ' in argument else argument
        owner = Declaration('alias', file, space, name, begin, begin)
        listed.append((file, owner, f'{name}.read', begin, begin,
                       [text, f'  {qualify(space, declaration)}.read cfg {argument}'], 'read'))

    names = {}
    os.makedirs(target, exist_ok=True)
    for module, imports in MODULES.items():
        text = [f'import {name}' for name in imports]
        text += ['/-!', '# Generated by `tools/translate.py` from the source: do not edit', '', 'Each definition is the'
                 ' translation of the code at the lines given, and each theorem says that the definition', 'of the model'
                 ' written by hand is the same.', '-/', '', 'set_option linter.unusedVariables false', '',
                 'namespace OpenType.Generated', '']
        for file, declaration, name, begin, end, lines, kind in listed:
            if file.module != module:
                continue
            place = f'src/{file.path}:{begin}' + (f'-{end}' if end != begin else '')
            space = declaration.space
            text += [f'namespace {space}', f'/-- `{place}`. -/'] + lines + ['']
            model = MODEL.get(f'{space}.{name}', f'OpenType.{space}.{name}')
            proof = PROOFS.get(f'{space}.{name}')
            if proof is None:
                used = sorted(set(re.findall(r'\b(?:Generated\.)?(?:\w+\.)?\w+\.(?:read|default)\b', ' '.join(lines[1:]))))
                used = [use + '_eq' for use in used]
                if any('← index ' in line for line in lines):
                    used.append('forFrom_index')
                proof = 'rfl'
                if used and not name.endswith('default'):
                    proof = f'by\n  delta {name} {model}\n  simp only [{", ".join(used)}] <;> rfl'
            text += [f'/-- The model of `{place}` is its translation. -/',
                     f'theorem {name}_eq : @{name} = {model if model[0] == "(" else "@" + model} := {proof}', f'end {space}', '']
            names[f'{space}.{name}'] = True
        text += ['end OpenType.Generated']
        with open(os.path.join(target, f'{module}.lean'), 'w') as handle:
            handle.write('\n'.join(text) + '\n')
    print(len(names) + methods.main(source, target), 'definitions')


# The definitions of the model whose names are not those of the code.
MODEL = {
    **{f'lookup.Flags.{name}': f'OpenType.lookup.{name}'
       for name in ('is_right_to_left', 'should_ignore_base_glyphs', 'should_ignore_ligature', 'should_ignore_marks',
                    'has_mark_filtering', 'is_invalid')},
    **{f'gpos.Flags.{name}': f'OpenType.gpos.{name}'
       for name in ('has_x_placement', 'has_y_placement', 'has_x_advance', 'has_y_advance',
                    'has_x_placement_correction', 'has_y_placement_correction', 'has_x_advance_correction',
                    'has_y_advance_correction', 'is_invalid')},
    'lookup.Flags.read': '(fun cfg => flagsU16 cfg OpenType.lookup.invalidFlags)',
    'fvar.AxisFlags.read': '(fun cfg => flagsU16 cfg OpenType.fvar.invalidAxisFlags)',
    'fvar.InstanceFlags.read': '(fun cfg => flagsU16 cfg OpenType.fvar.invalidInstanceFlags)',
}

if __name__ == '__main__':
    main(sys.argv[1] if len(sys.argv) > 1 else '/repo/src',
         sys.argv[2] if len(sys.argv) > 2 else os.path.join(ROOT, 'lean', 'Verif', 'Generated'))
